import Verif.Props.MaterialEdits
import Verif.Props.SkelData
/-!
# C93: small changes of models, helper bones and skeletons
-/

namespace Verif.Props
open Verif Derive

/-- Fields that are saved as they are. -/
local macro "same" : term => `(changed_upto (by intro h; first | (dsimp only at h; subst h; rfl) | (subst h; rfl)))

theorem saved_close {α : Type} [SsbhType α] {v v' : α} {k n : Nat} (h : CloseResults n (writeAs v) (writeAs v')) (hn : n ≤ k) (b : Bytes)
    (hb : liftWrite (writeAs v) = .ok b) : ∃ b', liftWrite (writeAs v') = .ok b' ∧ CloseBytes k b b' := by
  cases hw : writeAs v with
  | error e => rw [hw] at hb; cases hb
  | ok c =>
    rw [hw] at hb h
    cases hb
    cases hw' : writeAs v' with
    | error e => rw [hw'] at h; exact h.elim
    | ok c' => rw [hw'] at h; exact ⟨c', rfl, CloseBytes.mono hn h⟩

/-! ## Models -/

/-- The bytes that change in an entry of a model. -/
def editModlEntry (e e' : ModlData.ModlEntryData) : Option Nat :=
  plus (editText e.mesh_object_name e'.mesh_object_name) <|
  plus (some (changed 8 e.mesh_object_subindex e'.mesh_object_subindex)) <|
  editText e.material_label e'.material_label

/-- The bytes that change in a model. The version is not saved. -/
def editModel (d d' : ModlData) : Option Nat :=
  plus (editText d.model_name d'.model_name) <|
  plus (editText d.skeleton_file_name d'.skeleton_file_name) <|
  plus (editAll editText d.material_file_names d'.material_file_names) <|
  plus (editOption editText d.animation_file_name d'.animation_file_name) <|
  plus (editText d.mesh_file_name d'.mesh_file_name) <|
  editAll editModlEntry d.entries d'.entries

def modlEntryEdit (e e' : Modl.ModlEntry) : Option Nat :=
  Modl.ModlEntry.ty.edit (Derives.val Modl.ModlEntry.codec e) (Derives.val Modl.ModlEntry.codec e')

def stringEdit (s s' : SsbhString) : Option Nat := (Ty.text 4).edit s s'

theorem stringEdit_text (s s' : String) : stringEdit (ssbhText s) (ssbhText s') = editText s s' := rfl

theorem editOption_map {f : α → α → Option Nat} (g : β → α) (o o' : Option β) :
    editOption f (o.map g) (o'.map g) = editOption (fun a b => f (g a) (g b)) o o' := by
  cases o <;> cases o' <;> rfl

theorem modlEdit_eq (m m' : Modl.V17Data) : editFile (.Modl (.V17 m)) (.Modl (.V17 m')) =
    plus (stringEdit m.model_name m'.model_name) (plus (stringEdit m.skeleton_file_name m'.skeleton_file_name)
    (plus (editAll stringEdit m.material_file_names m'.material_file_names)
    (plus (editOption stringEdit m.animation_file_name m'.animation_file_name)
    (plus (stringEdit m.mesh_file_name m'.mesh_file_name)
    (plus (editAll modlEntryEdit m.entries m'.entries) (some 0)))))) := by
  have : editFile (.Modl (.V17 m)) (.Modl (.V17 m')) =
    plus (stringEdit m.model_name m'.model_name) (plus (stringEdit m.skeleton_file_name m'.skeleton_file_name)
    (plus (editAll (Ty.text 4).edit (m.material_file_names.map (Derives.val ssbhString)) (m'.material_file_names.map (Derives.val ssbhString)))
    (plus (editOption (Ty.text 4).edit (m.animation_file_name.map (Derives.val ssbhString)) (m'.animation_file_name.map (Derives.val ssbhString)))
    (plus (stringEdit m.mesh_file_name m'.mesh_file_name)
    (plus (editAll Modl.ModlEntry.ty.edit (m.entries.map (Derives.val Modl.ModlEntry.codec)) (m'.entries.map (Derives.val Modl.ModlEntry.codec)))
    (some 0)))))) := rfl
  rw [this, editAll_map, editAll_map, editOption_map]
  rfl

theorem modlEntry_upto (e e' : ModlData.ModlEntryData) (k : Nat) (h : editModlEntry e e' = some k) :
    Upto (modlEntryEdit e.toEntry e'.toEntry) k := by
  obtain ⟨a1, a2, a3⟩ := e
  obtain ⟨b1, b2, b3⟩ := e'
  obtain ⟨k1, _, h1, g1, rfl⟩ := plus_parts h
  obtain ⟨k2, k3, h2, h3, rfl⟩ := plus_parts g1
  cases h2
  exact .plus ⟨k1, le_rfl, h1⟩ (.plus same (.plus (k' := 0) ⟨k3, le_rfl, h3⟩ .zero))

/-- C93 for models: the file changes in no more bytes than the characters of names and the sub indices that changed. -/
theorem C93_model (d d' : ModlData) (k : Nat) (h : editModel d d' = some k) (b : Bytes) (hb : d.write = .ok b) :
    ∃ b', d'.write = .ok b' ∧ CloseBytes k b b' := by
  obtain ⟨k1, _, h1, g1, rfl⟩ := plus_parts h
  obtain ⟨k2, _, h2, g2, rfl⟩ := plus_parts g1
  obtain ⟨k3, _, h3, g3, rfl⟩ := plus_parts g2
  obtain ⟨k4, _, h4, g4, rfl⟩ := plus_parts g3
  obtain ⟨k5, k6, h5, h6, rfl⟩ := plus_parts g4
  obtain ⟨n, hn, he⟩ : Upto (editFile (.Modl d.toModl) (.Modl d'.toModl)) (k1 + (k2 + (k3 + (k4 + (k5 + (k6 + 0)))))) := by
    unfold ModlData.toModl
    rw [modlEdit_eq]
    refine .plus ⟨k1, le_rfl, h1⟩ <| .plus ⟨k2, le_rfl, h2⟩ <| .plus ⟨k3, le_rfl, ?_⟩ <| .plus ⟨k4, le_rfl, ?_⟩ <|
      .plus ⟨k5, le_rfl, h5⟩ <| .plus ?_ .zero
    · rw [editAll_map]; exact h3
    · rw [editOption_map]; exact h4
    · rw [editAll_map]; exact editAll_upto modlEntry_upto h6
  exact saved_close (C93_small _ _ _ he : CloseResults n (writeAs d.toModl) (writeAs d'.toModl)) hn b hb

theorem editModlEntry_refl (e : ModlData.ModlEntryData) : editModlEntry e e = some 0 := by
  rw [editModlEntry, editText_refl, editText_refl, changed_self]; rfl

/-- Two texts without zeros and of the same length. -/
theorem editText_same {s s' : String} (h0 : 0 ∉ textBytes s) (h0' : 0 ∉ textBytes s')
    (hx : (textBytes s').length = (textBytes s).length) : editText s s' = some (differences (textBytes s) (textBytes s')).card := by
  have hw : ∀ {l : Bytes}, 0 ∉ l → l.takeWhile (· ≠ 0) = l := fun {l} hl =>
    List.takeWhile_eq_self_iff.2 fun a ha => by simp only [ne_eq, decide_eq_true_eq]; rintro rfl; exact hl ha
  rw [editText, hw h0, hw h0', editBytes, if_pos hx.symm]

/-- Giving a mesh object another material, whose label has the same length, changes only the characters of the label. -/
theorem C93_assign (d : ModlData) (i : Nat) (e : ModlData.ModlEntryData) (label : String) (he : d.entries[i]? = some e)
    (h0 : 0 ∉ textBytes e.material_label) (h0' : 0 ∉ textBytes label)
    (hx : (textBytes label).length = (textBytes e.material_label).length) (b : Bytes) (hb : d.write = .ok b) :
    ∃ b', { d with entries := d.entries.set i { e with material_label := label } }.write = .ok b' ∧
      CloseBytes (differences (textBytes e.material_label) (textBytes label)).card b b' := by
  refine C93_model _ _ _ ?_ b hb
  simp only [editModel, editText_refl, editAll_refl editText_refl, editOption_refl editText_refl, zero_plus]
  rw [editAll_set editModlEntry_refl he, editModlEntry, editText_refl, changed_self, editText_same h0 h0' hx, zero_plus, zero_plus]

/-! ## Helper bones -/

def editVec3 (v v' : Vector3) : Nat := changed 4 v.x v'.x + (changed 4 v.y v'.y + changed 4 v.z v'.z)

/-- The bytes that change in an aim constraint. -/
def editAim (a a' : HlpbData.AimConstraintData) : Option Nat :=
  plus (editText a.name a'.name) <|
  plus (editText a.aim_bone_name1 a'.aim_bone_name1) <|
  plus (editText a.aim_bone_name2 a'.aim_bone_name2) <|
  plus (editText a.aim_type1 a'.aim_type1) <|
  plus (editText a.aim_type2 a'.aim_type2) <|
  plus (editText a.target_bone_name1 a'.target_bone_name1) <|
  plus (editText a.target_bone_name2 a'.target_bone_name2) <|
  some (changed 4 a.unk1 a'.unk1 + (changed 4 a.unk2 a'.unk2 + (editVec3 a.aim a'.aim + (editVec3 a.up a'.up +
    (editVector4 a.quat1 a'.quat1 + editVector4 a.quat2 a'.quat2)))))

/-- The bytes that change in an orient constraint. -/
def editOrient (a a' : HlpbData.OrientConstraintData) : Option Nat :=
  plus (editText a.name a'.name) <|
  plus (editText a.parent_bone_name1 a'.parent_bone_name1) <|
  plus (editText a.parent_bone_name2 a'.parent_bone_name2) <|
  plus (editText a.source_bone_name a'.source_bone_name) <|
  plus (editText a.target_bone_name a'.target_bone_name) <|
  some (changed 4 a.unk_type a'.unk_type + (editVec3 a.constraint_axes a'.constraint_axes + (editVector4 a.quat1 a'.quat1 +
    (editVector4 a.quat2 a'.quat2 + (editVec3 a.range_min a'.range_min + editVec3 a.range_max a'.range_max)))))

/-- The bytes that change in a file with helper bones. The version is not saved. -/
def editHelpers (d d' : HlpbData) : Option Nat :=
  plus (editAll editAim d.aim_constraints d'.aim_constraints) (editAll editOrient d.orient_constraints d'.orient_constraints)

def aimEdit (e e' : Hlpb.AimConstraint) : Option Nat :=
  Hlpb.AimConstraint.ty.edit (Derives.val Hlpb.AimConstraint.codec e) (Derives.val Hlpb.AimConstraint.codec e')

def orientEdit (e e' : Hlpb.OrientConstraint) : Option Nat :=
  Hlpb.OrientConstraint.ty.edit (Derives.val Hlpb.OrientConstraint.codec e) (Derives.val Hlpb.OrientConstraint.codec e')

theorem vec3_upto (v v' : Vector3) : Upto (Vector3.ty.edit (Derives.val Vector3.codec v) (Derives.val Vector3.codec v')) (editVec3 v v') := by
  obtain ⟨a, b, c⟩ := v
  obtain ⟨a', b', c'⟩ := v'
  exact .plus same <| .plus same <| .plus (k' := 0) same .zero

theorem vec4_upto (v v' : Vector4) : Upto (Vector4.ty.edit (Derives.val Vector4.codec v) (Derives.val Vector4.codec v')) (editVector4 v v') := by
  obtain ⟨a, b, c, d⟩ := v
  obtain ⟨a', b', c', d'⟩ := v'
  exact .plus same <| .plus same <| .plus same <| .plus (k' := 0) same .zero

theorem aim_upto (e e' : HlpbData.AimConstraintData) (k : Nat) (h : editAim e e' = some k) : Upto (aimEdit e.toAim e'.toAim) k := by
  obtain ⟨a1, a2, a3, a4, a5, a6, a7, a8, a9, a10, a11, a12, a13⟩ := e
  obtain ⟨b1, b2, b3, b4, b5, b6, b7, b8, b9, b10, b11, b12, b13⟩ := e'
  obtain ⟨k1, _, h1, g1, rfl⟩ := plus_parts h
  obtain ⟨k2, _, h2, g2, rfl⟩ := plus_parts g1
  obtain ⟨k3, _, h3, g3, rfl⟩ := plus_parts g2
  obtain ⟨k4, _, h4, g4, rfl⟩ := plus_parts g3
  obtain ⟨k5, _, h5, g5, rfl⟩ := plus_parts g4
  obtain ⟨k6, _, h6, g6, rfl⟩ := plus_parts g5
  obtain ⟨k7, k8, h7, h8, rfl⟩ := plus_parts g6
  cases h8
  exact .plus ⟨k1, le_rfl, h1⟩ <| .plus ⟨k2, le_rfl, h2⟩ <| .plus ⟨k3, le_rfl, h3⟩ <| .plus ⟨k4, le_rfl, h4⟩ <|
    .plus ⟨k5, le_rfl, h5⟩ <| .plus ⟨k6, le_rfl, h6⟩ <| .plus ⟨k7, le_rfl, h7⟩ <|
    .plus same <| .plus same <| .plus (vec3_upto _ _) <| .plus (vec3_upto _ _) <| .plus (vec4_upto _ _) <|
    .plus (k' := 0) (vec4_upto _ _) <| .skip rfl <| .skip rfl <| .skip rfl <| .skip rfl <| .skip rfl <| .skip rfl .zero

theorem orient_upto (e e' : HlpbData.OrientConstraintData) (k : Nat) (h : editOrient e e' = some k) :
    Upto (orientEdit e.toOrient e'.toOrient) k := by
  obtain ⟨a1, a2, a3, a4, a5, a6, a7, a8, a9, a10, a11⟩ := e
  obtain ⟨b1, b2, b3, b4, b5, b6, b7, b8, b9, b10, b11⟩ := e'
  obtain ⟨k1, _, h1, g1, rfl⟩ := plus_parts h
  obtain ⟨k2, _, h2, g2, rfl⟩ := plus_parts g1
  obtain ⟨k3, _, h3, g3, rfl⟩ := plus_parts g2
  obtain ⟨k4, _, h4, g4, rfl⟩ := plus_parts g3
  obtain ⟨k5, k6, h5, h6, rfl⟩ := plus_parts g4
  cases h6
  exact .plus ⟨k1, le_rfl, h1⟩ <| .plus ⟨k2, le_rfl, h2⟩ <| .plus ⟨k3, le_rfl, h3⟩ <| .plus ⟨k4, le_rfl, h4⟩ <|
    .plus ⟨k5, le_rfl, h5⟩ <|
    .plus same <| .plus (vec3_upto _ _) <| .plus (vec4_upto _ _) <| .plus (vec4_upto _ _) <| .plus (vec3_upto _ _) <|
    .plus (k' := 0) (vec3_upto _ _) .zero

theorem hlpbEdit_eq (a a' : List Hlpb.AimConstraint) (o o' : List Hlpb.OrientConstraint) (i : List UInt32) (t : List Hlpb.ConstraintType) :
    editFile (.Hlpb (.V11 ⟨a, o, i, t⟩)) (.Hlpb (.V11 ⟨a', o', i, t⟩)) = plus (editAll aimEdit a a') (editAll orientEdit o o') := by
  have : editFile (.Hlpb (.V11 ⟨a, o, i, t⟩)) (.Hlpb (.V11 ⟨a', o', i, t⟩)) =
    plus (editAll Hlpb.AimConstraint.ty.edit (a.map (Derives.val Hlpb.AimConstraint.codec)) (a'.map (Derives.val Hlpb.AimConstraint.codec)))
    (plus (editAll Hlpb.OrientConstraint.ty.edit (o.map (Derives.val Hlpb.OrientConstraint.codec)) (o'.map (Derives.val Hlpb.OrientConstraint.codec)))
    (plus (editAll (Ty.number 4).edit (i.map (Derives.val u32)) (i.map (Derives.val u32)))
    (plus (editAll Hlpb.ConstraintType.ty.edit (t.map (Derives.val Hlpb.ConstraintType.codec)) (t.map (Derives.val Hlpb.ConstraintType.codec)))
    (some 0)))) := rfl
  rw [this, editAll_map, editAll_map, editAll_refl (Ty.edit_refl _), editAll_refl (Ty.edit_refl _), zero_plus, zero_plus, plus_zero']
  rfl

/-- C93 for helper bones. -/
theorem C93_helpers (d d' : HlpbData) (k : Nat) (h : editHelpers d d' = some k) (b : Bytes) (hb : d.write = .ok b) :
    ∃ b', d'.write = .ok b' ∧ CloseBytes k b b' := by
  obtain ⟨k1, k2, h1, h2, rfl⟩ := plus_parts h
  obtain ⟨n, hn, he⟩ : Upto (editFile (.Hlpb d.toHlpb) (.Hlpb d'.toHlpb)) (k1 + k2) := by
    unfold HlpbData.toHlpb
    rw [← editAll_length h1, ← editAll_length h2, hlpbEdit_eq, editAll_map, editAll_map]
    exact .plus (editAll_upto aim_upto h1) (editAll_upto orient_upto h2)
  exact saved_close (C93_small _ _ _ he : CloseResults n (writeAs d.toHlpb) (writeAs d'.toHlpb)) hn b hb

/-! ## Skeletons -/

open SkelData

/-- The bytes that change in a bone without its matrices, if it has the same parent. -/
def editBone (b b' : BoneData) : Option Nat :=
  if b.parent_index = b'.parent_index then
    plus (editText b.name b'.name) (some (changed 1 b.billboard_type b'.billboard_type))
  else none

/-- The positions where two lists differ. -/
def unequal [DecidableEq α] (l l' : List α) : Nat := (l.zip l').countP fun p => !decide (p.1 = p.2)

theorem unequal_cons [DecidableEq α] (m m' : α) (l l' : List α) : unequal (m :: l) (m' :: l') = changed 1 m m' + unequal l l' := by
  unfold unequal changed
  rw [List.zip_cons_cons, List.countP_cons]
  by_cases hx : m = m'
  · simp [hx]
  · simp [hx, Nat.add_comm]

/-- Bones that have to be looked at if transforms change: those which change, and with a bone all its children. -/
def ClosedBelow (bones bones' : List BoneData) (S : Finset Nat) : Prop :=
  (∀ i b b', bones[i]? = some b → bones'[i]? = some b' → b.transform ≠ b'.transform → i ∈ S) ∧
  ∀ i b p, bones[i]? = some b → b.parent_index = some p → p ∈ S → i ∈ S

def boneEdit (e e' : Skel.SkelBoneEntry) : Option Nat :=
  Skel.SkelBoneEntry.ty.edit (Derives.val Skel.SkelBoneEntry.codec e) (Derives.val Skel.SkelBoneEntry.codec e')

def matEdit (e e' : Matrix4x4) : Option Nat := Matrix4x4.ty.edit (Derives.val Matrix4x4.codec e) (Derives.val Matrix4x4.codec e')

/-- The entry of a bone in a saved file, without the matrices. -/
def boneEntry (p : BoneData × Nat) : Skel.SkelBoneEntry where
  name := ssbhText p.1.name
  index := UInt16.ofNat p.2
  parent_index := match p.1.parent_index with
    | some index => Int16.ofNat index
    | none => -1
  flags := ⟨1, p.1.billboard_type⟩

theorem bone_upto (b b' : BoneData) (i k : Nat) (h : editBone b b' = some k) : Upto (boneEdit (boneEntry (b, i)) (boneEntry (b', i))) k := by
  obtain ⟨n, t, p, bt⟩ := b
  obtain ⟨n', t', p', bt'⟩ := b'
  unfold editBone at h
  split at h
  · rename_i hp
    dsimp only at hp
    subst hp
    obtain ⟨k1, k2, h1, h2, rfl⟩ := plus_parts h
    cases h2
    exact .plus ⟨k1, le_rfl, h1⟩ <| .skip rfl <| .skip rfl <| .plus (k' := 0) (.skip rfl <| .plus (k' := 0) same .zero) .zero
  · cases h

theorem skelEdit_eq (s s' : Skel.V10Data) : editFile (.Skel (.V10 s)) (.Skel (.V10 s')) =
    plus (editAll boneEdit s.bone_entries s'.bone_entries) (plus (editAll matEdit s.world_transforms s'.world_transforms)
    (plus (editAll matEdit s.inv_world_transforms s'.inv_world_transforms) (plus (editAll matEdit s.transforms s'.transforms)
    (plus (editAll matEdit s.inv_transforms s'.inv_transforms) (some 0))))) := by
  have : editFile (.Skel (.V10 s)) (.Skel (.V10 s')) =
    plus (editAll Skel.SkelBoneEntry.ty.edit (s.bone_entries.map (Derives.val Skel.SkelBoneEntry.codec)) (s'.bone_entries.map (Derives.val Skel.SkelBoneEntry.codec)))
    (plus (editAll Matrix4x4.ty.edit (s.world_transforms.map (Derives.val Matrix4x4.codec)) (s'.world_transforms.map (Derives.val Matrix4x4.codec)))
    (plus (editAll Matrix4x4.ty.edit (s.inv_world_transforms.map (Derives.val Matrix4x4.codec)) (s'.inv_world_transforms.map (Derives.val Matrix4x4.codec)))
    (plus (editAll Matrix4x4.ty.edit (s.transforms.map (Derives.val Matrix4x4.codec)) (s'.transforms.map (Derives.val Matrix4x4.codec)))
    (plus (editAll Matrix4x4.ty.edit (s.inv_transforms.map (Derives.val Matrix4x4.codec)) (s'.inv_transforms.map (Derives.val Matrix4x4.codec)))
    (some 0))))) := rfl
  rw [this]
  simp only [editAll_map]
  rfl

theorem mat_upto (m m' : Matrix4x4) : Upto (matEdit m m') (changed 64 m m') := by
  obtain ⟨a, b, c, d⟩ := m
  obtain ⟨a', b', c', d'⟩ := m'
  have h : Upto (matEdit ⟨a, b, c, d⟩ ⟨a', b', c', d'⟩) (editVector4 a a' + (editVector4 b b' + (editVector4 c c' + (editVector4 d d' + 0)))) :=
    .plus (vec4_upto _ _) <| .plus (vec4_upto _ _) <| .plus (vec4_upto _ _) <| .plus (vec4_upto _ _) .zero
  obtain ⟨n, hn, he⟩ := h
  by_cases hm : (⟨a, b, c, d⟩ : Matrix4x4) = ⟨a', b', c', d'⟩
  · rw [hm]
    exact ⟨0, Nat.zero_le _, Ty.edit_refl _ _⟩
  · refine ⟨n, ?_, he⟩
    rw [changed, if_neg hm]
    have h16 : ∀ v v' : Vector4, editVector4 v v' ≤ 16 := fun v v' => by
      have h1 := changed_le 4 v.x v'.x
      have h2 := changed_le 4 v.y v'.y
      have h3 := changed_le 4 v.z v'.z
      have h4 := changed_le 4 v.w v'.w
      unfold editVector4
      omega
    have := h16 a a'
    have := h16 b b'
    have := h16 c c'
    have := h16 d d'
    omega

theorem mats_upto : ∀ l l' : List Matrix4x4, l.length = l'.length → Upto (editAll matEdit l l') (64 * unequal l l')
  | [], [], _ => .zero
  | m :: l, m' :: l', h => by
    have ih := mats_upto l l' (by simpa using h)
    have hm := mat_upto m m'
    have he : 64 * unequal (m :: l) (m' :: l') = changed 64 m m' + 64 * unequal l l' := by
      rw [unequal_cons]
      unfold changed
      split <;> omega
    rw [he]
    exact hm.plus ih

theorem unequal_map [DecidableEq α] [DecidableEq β] (f : α → β) : ∀ l l' : List α, unequal (l.map f) (l'.map f) ≤ unequal l l'
  | [], _ => by simp [unequal]
  | _ :: _, [] => by simp [unequal]
  | m :: l, m' :: l' => by
    have ih := unequal_map f l l'
    rw [List.map_cons, List.map_cons, unequal_cons, unequal_cons]
    have : changed 1 (f m) (f m') ≤ changed 1 m m' := by
      unfold changed
      by_cases hx : m = m'
      · simp [hx]
      · rw [if_neg hx]; split <;> omega
    omega

theorem unequal_card [DecidableEq α] (S : Finset Nat) : ∀ (l l' : List α) (n : Nat), (∀ i a a', l[i]? = some a → l'[i]? = some a' → a ≠ a' → i + n ∈ S) →
    unequal l l' ≤ (S.filter (n ≤ ·)).card
  | [], _, _, _ => by simp [unequal]
  | _ :: _, [], _, _ => by simp [unequal]
  | m :: l, m' :: l', n, h => by
    have ih := unequal_card S l l' (n + 1) (fun i a a' h1 h2 h3 => by
      have := h (i + 1) a a' h1 h2 h3
      rwa [Nat.add_right_comm] at this)
    have hsub : S.filter (n + 1 ≤ ·) ⊆ S.filter (n ≤ ·) := fun x hx => by
      simp only [Finset.mem_filter] at hx ⊢
      exact ⟨hx.1, by omega⟩
    rw [unequal_cons]
    unfold changed
    by_cases hx : m = m'
    · rw [if_pos hx, Nat.zero_add]
      exact ih.trans (Finset.card_le_card hsub)
    · rw [if_neg hx]
      have hn : n ∈ S := by simpa using h 0 m m' rfl rfl hx
      have : (insert n (S.filter (n + 1 ≤ ·))).card ≤ (S.filter (n ≤ ·)).card := by
        refine Finset.card_le_card fun x hx => ?_
        rcases Finset.mem_insert.mp hx with rfl | hx
        · simp [hn]
        · exact hsub hx
      rw [Finset.card_insert_of_notMem (by simp)] at this
      omega

/-- The result has the same form: out of fuel, the same error, or a value. -/
def SameForm (r r' : Option (Except ε α)) : Prop :=
  match r, r' with
  | none, none => True
  | some (.error e), some (.error e') => e = e'
  | some (.ok _), some (.ok _) => True
  | _, _ => False

/-- The same parents. -/
def SameParents (bones bones' : List BoneData) : Prop :=
  bones.length = bones'.length ∧ ∀ (i : Nat) (b b' : BoneData), bones[i]? = some b → bones'[i]? = some b' → b.parent_index = b'.parent_index

theorem SameParents.get {bones bones' : List BoneData} (h : SameParents bones bones') (i : Nat) :
    (bones[i]? = none ∧ bones'[i]? = none) ∨ ∃ b b', bones[i]? = some b ∧ bones'[i]? = some b' ∧ b.parent_index = b'.parent_index := by
  cases hb : bones[i]? with
  | none =>
    left
    rw [List.getElem?_eq_none_iff] at hb ⊢
    exact ⟨rfl, by rw [← h.1]; exact hb⟩
  | some b =>
    obtain ⟨hi, _⟩ := List.getElem?_eq_some_iff.mp hb
    have : bones'[i]? = some (bones'[i]'(by rw [← h.1]; exact hi)) := List.getElem?_eq_getElem _
    exact .inr ⟨b, _, rfl, this, h.2 i _ _ hb this⟩

theorem worldLoop_form (O : MatOps Matrix4x4) {bones bones' : List BoneData} (h : SameParents bones bones') :
    ∀ (fuel : Nat) (b b' : BoneData) (t t' : Matrix4x4) (visited : List Nat), b.parent_index = b'.parent_index →
      SameForm (worldLoop O bones fuel b t visited) (worldLoop O bones' fuel b' t' visited)
  | 0, _, _, _, _, _, _ => trivial
  | fuel + 1, b, b', t, t', visited, hp => by
    unfold worldLoop
    rw [← hp]
    cases hq : b.parent_index with
    | none => trivial
    | some q =>
      dsimp only
      split
      · rfl
      · rcases h.get q with ⟨h1, h2⟩ | ⟨p, p', h1, h2, h3⟩
        · rw [h1, h2]; trivial
        · rw [h1, h2]
          exact worldLoop_form O h fuel p p' _ _ _ h3

theorem worldLoop_same (O : MatOps Matrix4x4) {bones bones' : List BoneData} (h : SameParents bones bones') {S : Finset Nat}
    (hS : ClosedBelow bones bones' S) :
    ∀ (fuel : Nat) (b b' : BoneData) (t : Matrix4x4) (visited : List Nat), b.parent_index = b'.parent_index →
      (∀ p, b.parent_index = some p → p ∉ S) →
      worldLoop O bones fuel b t visited = worldLoop O bones' fuel b' t visited
  | 0, _, _, _, _, _, _ => rfl
  | fuel + 1, b, b', t, visited, hp, hn => by
    unfold worldLoop
    rw [← hp]
    cases hq : b.parent_index with
    | none => rfl
    | some q =>
      dsimp only
      split
      · rfl
      · rcases h.get q with ⟨h1, h2⟩ | ⟨p, p', h1, h2, h3⟩
        · rw [h1, h2]
        · rw [h1, h2]
          have ht : p.transform = p'.transform := by
            by_contra hc
            exact hn q hq (hS.1 q p p' h1 h2 hc)
          dsimp only
          rw [ht]
          exact worldLoop_same O h hS fuel p p' _ _ h3 fun r hr hrS => hn q hq (hS.2 q p r h1 hr hrS)

theorem collect_form {ε α : Type} : ∀ (l l' : List (Option (Except ε α))) (xs : List α), List.Forall₂ SameForm l l' → collect l = some (.ok xs) →
    ∃ xs', collect l' = some (.ok xs') ∧ xs.length = xs'.length ∧
      l = xs.map (some ∘ .ok) ∧ l' = xs'.map (some ∘ .ok)
  | [], _, xs, h, hc => by
    cases h
    cases hc
    exact ⟨[], rfl, rfl, rfl, rfl⟩
  | _ :: _, [], _, h, _ => by cases h
  | r :: l, r' :: l', xs, h, hc => by
    obtain ⟨hr, hl⟩ := List.forall₂_cons.mp h
    match r, r', hr, hc with
    | some (.ok x), some (.ok x'), _, hc =>
      rw [collect] at hc
      cases hl' : collect l with
      | none => rw [hl'] at hc; cases hc
      | some y =>
        cases y with
        | error e => rw [hl'] at hc; cases hc
        | ok ys =>
          rw [hl'] at hc
          cases hc
          obtain ⟨ys', h1, h2, h3, h4⟩ := collect_form l l' ys hl hl'
          refine ⟨x' :: ys', by rw [collect, h1], by simp [h2], ?_, ?_⟩
          · rw [List.map_cons, ← h3]; rfl
          · rw [List.map_cons, ← h4]; rfl
    | none, _, _, hc => cases hc
    | some (.error e), _, _, hc => cases hc

theorem zipIdx_upto {f : α → α → Option Nat} {g : β → β → Option Nat} {c : α × Nat → β} (hf : ∀ a a' i k, f a a' = some k → Upto (g (c (a, i)) (c (a', i))) k) :
    ∀ {l l' : List α} {n k : Nat}, editAll f l l' = some k → Upto (editAll g ((l.zipIdx n).map c) ((l'.zipIdx n).map c)) k
  | [], [], _, _, h => by cases h; exact .zero
  | [], _ :: _, _, _, h => by cases h
  | _ :: _, [], _, _, h => by cases h
  | a :: l, a' :: l', _, _, h => by
    obtain ⟨x, y, hx, hy, rfl⟩ := plus_parts h
    exact (hf _ _ _ _ hx).plus (zipIdx_upto hf hy)

theorem editAll_get {f : α → α → Option Nat} : ∀ {l l' : List α} {k : Nat}, editAll f l l' = some k →
    ∀ (i : Nat) a a', l[i]? = some a → l'[i]? = some a' → ∃ n, f a a' = some n
  | [], _, _, _, _, _, _, h, _ => by cases h
  | _ :: _, [], _, h, _, _, _, _, _ => by cases h
  | a :: l, a' :: l', _, h, i, _, _, h1, h2 => by
    obtain ⟨x, y, hx, hy, rfl⟩ := plus_parts h
    cases i with
    | zero => cases h1; cases h2; exact ⟨x, hx⟩
    | succ i => exact editAll_get hy i _ _ h1 h2

theorem editBone_parents {d d' : List BoneData} {k : Nat} (h : editAll editBone d d' = some k) : SameParents d d' := by
  refine ⟨editAll_length h, fun i b b' h1 h2 => ?_⟩
  obtain ⟨n, hn⟩ := editAll_get h i b b' h1 h2
  unfold editBone at hn
  split at hn
  · assumption
  · cases hn

/-- C93 for skeletons with the same parents. `k` counts names and billboard types; a changed transform changes at most 128 bytes,
for itself and its inverse; and each bone that is below a changed one, or is changed itself, at most 128 bytes for its world
transform and the inverse. `S` is any set which contains these bones. -/
theorem C93_skeleton (O : MatOps Matrix4x4) (d d' : SkelData) (k : Nat) (h : editAll editBone d.bones d'.bones = some k) (S : Finset Nat)
    (hS : ClosedBelow d.bones d'.bones S) (b : Bytes) (hb : d.write O = .ok b) :
    ∃ b', d'.write O = .ok b' ∧
      CloseBytes (k + 128 * unequal (d.bones.map (·.transform)) (d'.bones.map (·.transform)) + 128 * S.card) b b' := by
  have hp := editBone_parents h
  have hform : List.Forall₂ SameForm (d.bones.map (worldTransform O d)) (d'.bones.map (worldTransform O d')) := by
    rw [List.forall₂_iff_get]
    refine ⟨by simp [hp.1], fun i h1 h2 => ?_⟩
    simp only [List.get_eq_getElem, List.getElem_map]
    have hw : ∀ p p' : BoneData, p.parent_index = p'.parent_index → SameForm (worldTransform O d p) (worldTransform O d' p') := fun p p' hpp => by
      unfold worldTransform
      rw [hp.1]
      exact worldLoop_form O hp _ _ _ _ _ _ hpp
    exact hw _ _ (hp.2 i _ _ (List.getElem?_eq_getElem _) (List.getElem?_eq_getElem _))
  unfold SkelData.write SkelData.toSkel at hb ⊢
  cases hc : collect (d.bones.map (worldTransform O d)) with
  | none => rw [hc] at hb; cases hb
  | some r =>
    cases r with
    | error e => rw [hc] at hb; cases hb
    | ok world =>
      rw [hc] at hb
      obtain ⟨world', h1, h2, h3, h4⟩ := collect_form _ _ _ hform hc
      rw [h1]
      dsimp only at hb ⊢
      have hw : unequal world world' ≤ S.card := by
        refine (unequal_card S world world' 0 fun i m m' hm hm' hne => ?_).trans (Finset.card_le_card (Finset.filter_subset _ _))
        rw [Nat.add_zero]
        by_contra hi
        have e1 : (d.bones.map (worldTransform O d))[i]? = some (some (.ok m)) := by rw [h3, List.getElem?_map, hm]; rfl
        have e2 : (d'.bones.map (worldTransform O d'))[i]? = some (some (.ok m')) := by rw [h4, List.getElem?_map, hm']; rfl
        rw [List.getElem?_map] at e1 e2
        rcases hp.get i with ⟨g1, _⟩ | ⟨p, p', g1, g2, g3⟩
        · rw [g1] at e1; cases e1
        · rw [g1] at e1
          rw [g2] at e2
          simp only [Option.map_some, Option.some.injEq] at e1 e2
          have ht : p.transform = p'.transform := by
            by_contra hcon
            exact hi (hS.1 i p p' g1 g2 hcon)
          unfold worldTransform at e1 e2
          rw [← ht, ← hp.1, ← worldLoop_same O hp hS _ p p' _ _ g3 (fun q hq hqS => hi (hS.2 i p q g1 hq hqS)), e1] at e2
          exact hne (by cases e2; rfl)
      have he := skelEdit_eq
        { bone_entries := d.bones.zipIdx.map boneEntry, world_transforms := world, inv_world_transforms := world.map O.inverse,
          transforms := d.bones.map (·.transform), inv_transforms := d.bones.map fun b => O.inverse b.transform }
        { bone_entries := d'.bones.zipIdx.map boneEntry, world_transforms := world', inv_world_transforms := world'.map O.inverse,
          transforms := d'.bones.map (·.transform), inv_transforms := d'.bones.map fun b => O.inverse b.transform }
      dsimp only at he
      have hinv : ∀ l : List BoneData, (l.map fun b => O.inverse b.transform) = (l.map (·.transform)).map O.inverse := fun l => by
        rw [List.map_map]; rfl
      have hu : Upto _ _ := (zipIdx_upto (n := 0) (c := boneEntry) bone_upto h).plus <| (mats_upto world world' h2).plus <|
        (mats_upto (world.map O.inverse) (world'.map O.inverse) (by simpa using h2)).plus <|
        (mats_upto (d.bones.map (·.transform)) (d'.bones.map (·.transform)) (by simpa using hp.1)).plus <|
        (mats_upto (d.bones.map fun b => O.inverse b.transform) (d'.bones.map fun b => O.inverse b.transform) (by simpa using hp.1)).plus .zero
      rw [← he] at hu
      obtain ⟨n, hn, hu⟩ := hu
      have e1 := unequal_map O.inverse world world'
      have e2 := unequal_map O.inverse (d.bones.map (·.transform)) (d'.bones.map (·.transform))
      rw [← hinv, ← hinv] at e2
      exact saved_close (C93_small _ _ _ hu : CloseResults n (writeAs (Skel.V10 _)) (writeAs (Skel.V10 _))) (by omega) b hb

theorem editBone_refl (b : BoneData) : editBone b b = some 0 := by
  unfold editBone
  rw [if_pos rfl, editText_refl, changed_self]
  rfl

/-- A bone which is nobody's parent is moved: at most 256 bytes change, however many bones there are. -/
theorem C93_move (O : MatOps Matrix4x4) (d : SkelData) (i : Nat) (e : BoneData) (t : Matrix4x4) (he : d.bones[i]? = some e)
    (hleaf : ∀ b ∈ d.bones, b.parent_index ≠ some i) (b : Bytes) (hb : d.write O = .ok b) :
    ∃ b', { d with bones := d.bones.set i { e with transform := t } }.write O = .ok b' ∧ CloseBytes 256 b b' := by
  have hk : editAll editBone d.bones (d.bones.set i { e with transform := t }) = some 0 :=
    (editAll_set editBone_refl he _).trans (by
      unfold editBone
      dsimp only
      rw [if_pos rfl, editText_refl, changed_self]
      rfl)
  have hS : ClosedBelow d.bones (d.bones.set i { e with transform := t }) {i} := by
    constructor
    · intro j p p' hp hp' hne
      rw [Finset.mem_singleton]
      by_contra hj
      rw [List.getElem?_set_ne (fun h => hj h.symm), hp] at hp'
      exact hne (by cases hp'; rfl)
    · intro j p q hp hq hqi
      rw [Finset.mem_singleton] at hqi
      subst hqi
      exact absurd hq (hleaf p (List.mem_of_getElem? hp))
  obtain ⟨b', h1, h2⟩ := C93_skeleton O d { d with bones := d.bones.set i { e with transform := t } } 0 hk {i} hS b hb
  refine ⟨b', h1, CloseBytes.mono ?_ h2⟩
  have := unequal_card {i} (d.bones.map (·.transform)) ((d.bones.set i { e with transform := t }).map (·.transform)) 0 fun j m m' hm hm' hne => by
    rw [Nat.add_zero, Finset.mem_singleton]
    by_contra hj
    rw [List.getElem?_map, List.getElem?_set_ne (fun h => hj h.symm), ← List.getElem?_map, hm] at hm'
    exact hne (by cases hm'; rfl)
  have hc := Finset.card_filter_le ({i} : Finset Nat) (0 ≤ ·)
  rw [Finset.card_singleton] at hc ⊢
  dsimp only
  omega

/-! ## Concrete cases -/

example (b : Bytes) (hb : sampleModl.write = .ok b) :
    ∃ b', { sampleModl with entries := [⟨"mesh", 0, "label"⟩, ⟨"mesh", 1, "label7"⟩] }.write = .ok b' ∧ CloseBytes 1 b b' :=
  C93_model _ _ 1 (by decide +kernel) b hb

example : (sampleModl.write.toOption).isSome = true := by decide +kernel

example (b : Bytes) (hb : sampleHlpb.write = .ok b) :
    ∃ b', { sampleHlpb with orient_constraints := sampleHlpb.orient_constraints.map fun (a : HlpbData.OrientConstraintData) => { a with quat1 := (⟨1, 2, 3, 5⟩ : Vector4) } }.write = .ok b' ∧ CloseBytes 8 b b' :=
  C93_helpers _ _ 8 (by decide +kernel) b hb

/-- In the chain of bones, "b" has no children, and "root" has all but one below it. -/
example (b : Bytes) (t : Matrix4x4) (hb : chainSkel.write countOps = .ok b) :
    ∃ b', { chainSkel with bones := chainSkel.bones.set 2 ⟨"b", t, some 1, .Disabled⟩ }.write countOps = .ok b' ∧ CloseBytes 256 b b' :=
  C93_move countOps chainSkel 2 ⟨"b", m0 3, some 1, .Disabled⟩ t rfl (by decide) b hb

example : ClosedBelow chainSkel.bones (chainSkel.bones.set 0 ⟨"root", m0 9, none, .Disabled⟩) {0, 1, 2} := by
  constructor
  · intro i p p' h h'
    match i, h, h' with
    | 0, _, _ => simp
    | 1, _, _ => simp
    | 2, _, _ => simp
    | 3, h, h' => cases h; cases h'; simp
    | n + 4, h, _ => simp [chainSkel] at h
  · intro i p q h hq hs
    match i, h with
    | 0, _ => simp
    | 1, _ => simp
    | 2, _ => simp
    | 3, h => cases h; cases hq; simp at hs
    | n + 4, h => simp [chainSkel] at h

example : ((chainSkel.write countOps).toOption).isSome = true := by decide +kernel

end Verif.Props
