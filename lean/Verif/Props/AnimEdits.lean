import Verif.Props.DataEdits
import Verif.Props.MeshEditLaws
import Verif.Props.PlainEdits
import Verif.Data.AnimDataLaws
/-!
# C93: small changes of animations
-/

namespace Verif.Props
open Verif Derive AnimData

local macro "same" : term => `(changed_upto (by intro h; first | (dsimp only at h; subst h; rfl) | (subst h; rfl)))

/-- The bytes that change in the encoded values of a track, if there are as many values of the same type and the encoding is as long
as before. -/
def editValues (F : FloatOps) (t t' : TrackData) : Option Nat :=
  if t.values.trackType = t'.values.trackType ∧ t.values.len = t'.values.len then
    match t.values.write F (inferOptimalCompressionType t.values) t.compensate_scale,
      t'.values.write F (inferOptimalCompressionType t'.values) t'.compensate_scale with
    | .ok b, .ok b' => editBytes b b'
    | _, _ => none
  else none

/-- The bytes that change in a track. -/
def editTrack (F : FloatOps) (t t' : TrackData) : Option Nat :=
  plus (editText t.name t'.name) <| plus (some (changed 4 t.transform_flags t'.transform_flags)) (editValues F t t')

def editNode (F : FloatOps) (n n' : NodeData) : Option Nat :=
  plus (editText n.name n'.name) (editAll (editTrack F) n.tracks n'.tracks)

def editAnimGroup (F : FloatOps) (g g' : GroupData) : Option Nat :=
  plus (some (changed 8 g.group_type g'.group_type)) (editAll (editNode F) g.nodes g'.nodes)

/-- The bytes that change in an animation. -/
def editAnim (F : FloatOps) (d d' : AnimData) : Option Nat :=
  if d.major_version = d'.major_version ∧ d.minor_version = d'.minor_version then
    plus (some (changed 4 d.final_frame_index d'.final_frame_index)) (editAll (editAnimGroup F) d.groups d'.groups)
  else none

/-! ## Proofs -/

def trackEdit (t t' : Anim.TrackV2) : Option Nat :=
  Anim.TrackV2.ty.edit (Derives.val Anim.TrackV2.codec t) (Derives.val Anim.TrackV2.codec t')

def nodeEdit (t t' : Anim.Node) : Option Nat :=
  Anim.Node.ty.edit (Derives.val Anim.Node.codec t) (Derives.val Anim.Node.codec t')

def animGroupEdit (t t' : Anim.Group) : Option Nat :=
  Anim.Group.ty.edit (Derives.val Anim.Group.codec t) (Derives.val Anim.Group.codec t')

/-- The values are close, with the buffers before and after. -/
def StepClose (g : β → β → Option Nat) (p : β → β → Prop) (n k : Nat) : Except AnimErr (β × Bytes) → Except AnimErr (β × Bytes) → Prop
  | .ok (y, s), .ok (y', s') => p y y' ∧ ∃ a m, g y y' = some a ∧ CloseBytes m s s' ∧ a + m ≤ n + k
  | .error _, _ => True
  | _, .error _ => False

theorem mapState_close {f : Bytes → α → Except AnimErr (β × Bytes)} {e : α → α → Option Nat} {g : β → β → Option Nat} {p : β → β → Prop}
    (hf : ∀ n k s s' x x', CloseBytes n s s' → e x x' = some k → StepClose g p n k (f s x) (f s' x')) :
    ∀ (l l' : List α) (n k : Nat) (s s' : Bytes), CloseBytes n s s' → editAll e l l' = some k →
      StepClose (editAll g) (List.Forall₂ p) n k (mapState f s l) (mapState f s' l')
  | [], [], n, k, s, s', hs, h => by cases h; exact ⟨.nil, 0, n, rfl, hs, by omega⟩
  | [], _ :: _, _, _, _, _, _, h => by cases h
  | _ :: _, [], _, _, _, _, _, h => by cases h
  | x :: l, x' :: l', n, k, s, s', hs, h => by
    obtain ⟨k1, k2, h1, h2, rfl⟩ := plus_parts h
    have hx := hf n k1 s s' x x' hs h1
    unfold mapState
    cases r : f s x with
    | error => trivial
    | ok a =>
      obtain ⟨y, s1⟩ := a
      cases r' : f s' x' with
      | error => rw [r, r'] at hx; exact hx.elim
      | ok a' =>
        obtain ⟨y', s1'⟩ := a'
        rw [r, r'] at hx
        obtain ⟨hp, a, m, ha, hm, hle⟩ := hx
        have hl := mapState_close hf l l' m k2 s1 s1' hm h2
        dsimp only
        cases q : mapState f s1 l with
        | error => trivial
        | ok b =>
          obtain ⟨ys, s2⟩ := b
          cases q' : mapState f s1' l' with
          | error => rw [q, q'] at hl; exact hl.elim
          | ok b' =>
            obtain ⟨ys', s2'⟩ := b'
            rw [q, q'] at hl
            obtain ⟨hp2, a2, m2, ha2, hm2, hle2⟩ := hl
            refine ⟨.cons hp hp2, a + a2, m2, ?_, hm2, by omega⟩
            rw [editAll, ha, ha2]
            rfl

theorem infer_unchanged {v v' : TrackValues} (ht : v.trackType = v'.trackType) (hl : v.len = v'.len) :
    inferOptimalCompressionType v = inferOptimalCompressionType v' := by
  unfold inferOptimalCompressionType
  rw [hl]
  cases v <;> cases v' <;> first | rfl | cases ht

theorem track_close (F : FloatOps) (n k : Nat) (s s' : Bytes) (t t' : TrackData) (hs : CloseBytes n s s') (h : editTrack F t t' = some k) :
    StepClose trackEdit (fun x x' => x.frame_count = x'.frame_count) n k (createTrack F s t) (createTrack F s' t') := by
  obtain ⟨k1, _, h1, g1, rfl⟩ := plus_parts h
  obtain ⟨k2, k3, h2, h3, rfl⟩ := plus_parts g1
  cases h2
  unfold editValues at h3
  split at h3
  swap; · cases h3
  rename_i hv
  split at h3
  swap; · cases h3
  rename_i b b' hb hb'
  unfold editBytes at h3
  split at h3
  swap; · cases h3
  rename_i hlen
  cases h3
  unfold createTrack
  dsimp only
  rw [hb, hb']
  dsimp only
  refine ⟨by dsimp only; rw [hv.2], ?_⟩
  rw [← infer_unchanged hv.1 hv.2, ← hv.1, ← hv.2, ← hlen, hs.1]
  obtain ⟨name, comp, tf, values⟩ := t
  obtain ⟨name', comp', tf', values'⟩ := t'
  have hu : Upto (trackEdit
      { name := ssbhText name, flags := ⟨values.trackType, inferOptimalCompressionType values⟩, frame_count := UInt32.ofNat values.len,
        transform_flags := tf.toAnim, data_offset := UInt32.ofNat s.length, data_size := UInt64.ofNat b.length }
      { name := ssbhText name', flags := ⟨values.trackType, inferOptimalCompressionType values⟩, frame_count := UInt32.ofNat values.len,
        transform_flags := tf'.toAnim, data_offset := UInt32.ofNat s.length, data_size := UInt64.ofNat b.length })
      (k1 + (0 + (changed 4 tf tf' + 0))) :=
    .plus ⟨k1, le_rfl, h1⟩ <| .plus ⟨0, le_rfl, Ty.edit_refl _ _⟩ <| .skip rfl <| .plus same <| .skip rfl <| .skip rfl .zero
  obtain ⟨a, ha, he⟩ := hu
  refine ⟨a, n + (differences b b').card, he, ⟨?_, ?_⟩, by dsimp only; omega⟩
  · rw [List.length_append, List.length_append, hs.1, hlen]
  · have := differences_append (b := b) (b' := b') hs.1.symm
    have := hs.2
    omega

theorem node_close (F : FloatOps) (n k : Nat) (s s' : Bytes) (t t' : NodeData) (hs : CloseBytes n s s') (h : editNode F t t' = some k) :
    StepClose nodeEdit (fun x x' => List.Forall₂ (fun (x x' : Anim.TrackV2) => x.frame_count = x'.frame_count) x.tracks x'.tracks) n k
      (createNode F s t) (createNode F s' t') := by
  obtain ⟨k1, k2, h1, h2, rfl⟩ := plus_parts h
  have hl := mapState_close (track_close F) _ _ n k2 s s' hs h2
  unfold createNode
  match mapState (createTrack F) s t.tracks, mapState (createTrack F) s' t'.tracks, hl with
  | .error _, _, _ => trivial
  | .ok (y, s), .ok (y', s'), ⟨hp, a, m, ha, hm, hle⟩ =>
    refine ⟨hp, k1 + a, m, ?_, hm, by omega⟩
    have : nodeEdit ⟨ssbhText t.name, y⟩ ⟨ssbhText t'.name, y'⟩ = plus (editText t.name t'.name)
      (plus (editAll Anim.TrackV2.ty.edit (y.map (Derives.val Anim.TrackV2.codec)) (y'.map (Derives.val Anim.TrackV2.codec))) (some 0)) := rfl
    rw [this, h1, editAll_map, plus_zero']
    show plus (some k1) (editAll trackEdit y y') = _
    rw [ha]
    rfl

/-- Two groups with the same frame counts. -/
def SameCounts (g g' : Anim.Group) : Prop :=
  List.Forall₂ (fun (x x' : Anim.Node) => List.Forall₂ (fun (x x' : Anim.TrackV2) => x.frame_count = x'.frame_count) x.tracks x'.tracks) g.nodes g'.nodes

theorem group_close (F : FloatOps) (n k : Nat) (s s' : Bytes) (t t' : GroupData) (hs : CloseBytes n s s') (h : editAnimGroup F t t' = some k) :
    StepClose animGroupEdit SameCounts n k (createGroup F s t) (createGroup F s' t') := by
  obtain ⟨k1, k2, h1, h2, rfl⟩ := plus_parts h
  have hl := mapState_close (node_close F) _ _ n k2 s s' hs h2
  unfold createGroup
  match mapState (createNode F) s t.nodes, mapState (createNode F) s' t'.nodes, hl with
  | .error _, _, _ => trivial
  | .ok (y, s), .ok (y', s'), ⟨hp, a, m, ha, hm, hle⟩ =>
    have hg : Upto (Anim.GroupType.ty.edit (Derives.val Anim.GroupType.codec t.group_type) (Derives.val Anim.GroupType.codec t'.group_type)) k1 := by
      cases h1
      exact changed_upto (by intro h; rw [h])
    obtain ⟨b, hb, he⟩ := hg
    refine ⟨hp, b + a, m, ?_, hm, by omega⟩
    have : animGroupEdit ⟨t.group_type, y⟩ ⟨t'.group_type, y'⟩ = plus
      (Anim.GroupType.ty.edit (Derives.val Anim.GroupType.codec t.group_type) (Derives.val Anim.GroupType.codec t'.group_type))
      (plus (editAll Anim.Node.ty.edit (y.map (Derives.val Anim.Node.codec)) (y'.map (Derives.val Anim.Node.codec))) (some 0)) := rfl
    rw [this, he, editAll_map, plus_zero']
    show plus (some b) (editAll nodeEdit y y') = _
    rw [ha]
    rfl

theorem forall₂_map_eq {f : α → β} {p : α → α → Prop} (hf : ∀ a a', p a a' → f a = f a') : ∀ {l l' : List α}, List.Forall₂ p l l' → l.map f = l'.map f
  | _, _, .nil => rfl
  | _, _, .cons h t => by rw [List.map_cons, List.map_cons, hf _ _ h, forall₂_map_eq hf t]

theorem forall₂_filterMap_eq {f : α → Option β} {p : α → α → Prop} (hf : ∀ a a', p a a' → f a = f a') :
    ∀ {l l' : List α}, List.Forall₂ p l l' → l.filterMap f = l'.filterMap f
  | _, _, .nil => rfl
  | _, _, .cons h t => by rw [List.filterMap_cons, List.filterMap_cons, hf _ _ h, forall₂_filterMap_eq hf t]

theorem counts_same {g g' : List Anim.Group} (h : List.Forall₂ SameCounts g g') : maxFrameCount g = maxFrameCount g' := by
  unfold maxFrameCount
  dsimp only
  rw [forall₂_filterMap_eq (fun a a' (h : SameCounts a a') => ?_) h]
  rw [forall₂_filterMap_eq (fun b b' hb => ?_) h]
  rw [forall₂_map_eq (fun c c' hc => ?_) hb]
  rw [hc]

theorem stringEdit_refl (n : SsbhString) : stringEdit n n = some 0 := Ty.edit_refl _ _

theorem animEdit20 (f f' : F32) (n : SsbhString) (g g' : List Anim.Group) (b b' : Bytes) :
    editFile (.Anim (.V20 ⟨f, 1, 3, n, g, b⟩)) (.Anim (.V20 ⟨f', 1, 3, n, g', b'⟩)) =
    plus (some (if f.toNat = f'.toNat then 0 else 4)) (plus (editAll animGroupEdit g g') (editBytes b b')) := by
  have : editFile (.Anim (.V20 ⟨f, 1, 3, n, g, b⟩)) (.Anim (.V20 ⟨f', 1, 3, n, g', b'⟩)) =
    plus (some (if f.toNat = f'.toNat then 0 else 4)) (plus (some 0) (plus (some 0) (plus (stringEdit n n)
      (plus (editAll Anim.Group.ty.edit (g.map (Derives.val Anim.Group.codec)) (g'.map (Derives.val Anim.Group.codec))) (plus (editBytes b b') (some 0)))))) := rfl
  rw [this, editAll_map, plus_zero', zero_plus, zero_plus, stringEdit_refl, zero_plus]
  rfl

theorem animEdit21 (f f' : F32) (n : SsbhString) (g g' : List Anim.Group) (b b' : Bytes) (u : Anim.UnkData) :
    editFile (.Anim (.V21 ⟨f, 1, 3, n, g, b, u⟩)) (.Anim (.V21 ⟨f', 1, 3, n, g', b', u⟩)) =
    plus (some (if f.toNat = f'.toNat then 0 else 4)) (plus (editAll animGroupEdit g g') (editBytes b b')) := by
  have : editFile (.Anim (.V21 ⟨f, 1, 3, n, g, b, u⟩)) (.Anim (.V21 ⟨f', 1, 3, n, g', b', u⟩)) =
    plus (some (if f.toNat = f'.toNat then 0 else 4)) (plus (some 0) (plus (some 0) (plus (stringEdit n n)
      (plus (editAll Anim.Group.ty.edit (g.map (Derives.val Anim.Group.codec)) (g'.map (Derives.val Anim.Group.codec))) (plus (editBytes b b')
      (plus (Anim.UnkData.ty.edit (Derives.val Anim.UnkData.codec u) (Derives.val Anim.UnkData.codec u)) (some 0))))))) := rfl
  rw [this, editAll_map, plus_zero', Ty.edit_refl, plus_zero', zero_plus, zero_plus, stringEdit_refl, zero_plus]
  rfl

theorem anim_upto {f f' : F32} {g g' : List Anim.Group} {b b' : Bytes} {a m k : Nat} (ha : editAll animGroupEdit g g' = some a)
    (hm : CloseBytes m b b') (hle : a + m ≤ k) :
    Upto (plus (some (if f.toNat = f'.toNat then 0 else 4)) (plus (editAll animGroupEdit g g') (editBytes b b'))) (changed 4 f f' + k) := by
  refine .plus (changed_upto (by rintro rfl; rfl)) ?_
  rw [ha, editBytes, if_pos hm.1.symm]
  exact ⟨a + (differences b b').card, by have := hm.2; omega, rfl⟩

/-- What is saved. -/
def savedAs (d : AnimData) (gs : List Anim.Group) (buf : Bytes) : Option Anim :=
  if d.major_version = 2 ∧ d.minor_version = 0 then some (.V20 ⟨d.final_frame_index, 1, 3, ssbhText "", gs, buf⟩)
  else if d.major_version = 2 ∧ d.minor_version = 1 then some (.V21 ⟨d.final_frame_index, 1, 3, ssbhText "", gs, buf, ⟨[], []⟩⟩)
  else none

theorem create_iff (F : FloatOps) (d : AnimData) (a : Anim) : create F d = .ok a ↔ ∃ gs buf, mapState (createGroup F) [] d.groups = .ok (gs, buf) ∧
    (F.ge d.final_frame_index 0 && F.ge d.final_frame_index (F.lastFrame (maxFrameCount gs))) = true ∧ savedAs d gs buf = some a := by
  unfold create savedAs
  dsimp only
  cases mapState (createGroup F) [] d.groups with
  | error e =>
    constructor
    · intro h
      split at h
      · cases h
      · split at h <;> cases h
    · rintro ⟨_, _, h, _⟩
      cases h
  | ok x =>
    obtain ⟨gs, buf⟩ := x
    dsimp only
    by_cases hc : (F.ge d.final_frame_index 0 && F.ge d.final_frame_index (F.lastFrame (maxFrameCount gs))) = true
    · simp only [hc, if_true]
      constructor
      · intro h
        refine ⟨gs, buf, rfl, hc, ?_⟩
        split at h
        · rw [if_pos ‹_ ∧ _›]; cases h; rfl
        · split at h
          · rw [if_neg ‹¬ _›, if_pos ‹_ ∧ _›]; cases h; rfl
          · cases h
      · rintro ⟨_, _, h, _, h'⟩
        cases h
        split at h'
        · rw [if_pos ‹_ ∧ _›]; cases h'; rfl
        · split at h'
          · rw [if_neg ‹¬ _›, if_pos ‹_ ∧ _›]; cases h'; rfl
          · cases h'
    · simp only [hc]
      constructor
      · intro h
        split at h
        · cases h
        · split at h <;> cases h
      · rintro ⟨_, _, h, h', _⟩
        cases h
        exact absurd h' hc

/-- C93 for animations: saving the changed animation succeeds unless its final frame index is not valid any more, and no more bytes
of the file change than those of the final frame index, group types, flags, characters and of the encoded values. -/
theorem C93_anim (F : FloatOps) (d d' : AnimData) (k : Nat) (h : editAnim F d d' = some k) (b : Bytes) (hb : d.write F = .ok b) :
    (d.final_frame_index = d'.final_frame_index → ∃ b', d'.write F = .ok b') ∧
    ∀ b', d'.write F = .ok b' → CloseBytes k b b' := by
  unfold editAnim at h
  split at h
  swap; · cases h
  rename_i hv
  obtain ⟨k1, k2, h1, h2, rfl⟩ := plus_parts h
  cases h1
  have hm := mapState_close (group_close F) _ _ 0 k2 [] [] ⟨rfl, (differences_self _).le⟩ h2
  unfold AnimData.write at hb ⊢
  cases hc : create F d with
  | error e => rw [hc] at hb; cases hb
  | ok s =>
    rw [hc] at hb
    dsimp only at hb
    obtain ⟨gs, buf, hr, hf, hs⟩ := (create_iff F d s).1 hc
    obtain ⟨gs', buf', hr'⟩ : ∃ gs' buf', mapState (createGroup F) [] d'.groups = .ok (gs', buf') := by
      cases hr' : mapState (createGroup F) [] d'.groups with
      | error e => rw [hr, hr'] at hm; exact hm.elim
      | ok x => exact ⟨_, _, rfl⟩
    rw [hr, hr'] at hm
    obtain ⟨hp, a, m, ha, hm, hle⟩ := hm
    obtain ⟨s', hs', n, hn, he⟩ : ∃ s', savedAs d' gs' buf' = some s' ∧ Upto (editFile (.Anim s) (.Anim s'))
        (changed 4 d.final_frame_index d'.final_frame_index + k2) := by
      unfold savedAs at hs ⊢
      rw [← hv.1, ← hv.2]
      split at hs
      · cases hs
        exact ⟨_, if_pos ‹_›, by rw [animEdit20]; exact anim_upto ha hm (by omega)⟩
      · split at hs
        · cases hs
          exact ⟨_, by rw [if_neg ‹_›, if_pos ‹_›], by rw [animEdit21]; exact anim_upto ha hm (by omega)⟩
        · cases hs
    obtain ⟨b', hb', hcb⟩ := saved_close (C93_small _ _ _ he : CloseResults n (writeAs s) (writeAs s')) hn b hb
    constructor
    · intro hff
      rw [hff, counts_same hp] at hf
      rw [(create_iff F d' s').2 ⟨gs', buf', hr', hf, hs'⟩]
      exact ⟨b', hb'⟩
    · intro c hcc
      cases hc' : create F d' with
      | error e => rw [hc'] at hcc; cases hcc
      | ok s2 =>
        obtain ⟨_, _, hr2, _, hs2⟩ := (create_iff F d' s2).1 hc'
        rw [hr'] at hr2
        cases hr2
        rw [hs'] at hs2
        cases hs2
        rw [hc'] at hcc
        dsimp only at hcc
        rw [hb'] at hcc
        cases hcc
        exact hcb

/-! ## Values of one track -/

/-- The number of frames whose value changed, for values of the same type and number. -/
def changedFrames : TrackValues → TrackValues → Option Nat
  | .transform v, .transform v' => if v.length = v'.length then some (unequal v v') else none
  | .uvTransform v, .uvTransform v' => if v.length = v'.length then some (unequal v v') else none
  | .float v, .float v' => if v.length = v'.length then some (unequal v v') else none
  | .patternIndex v, .patternIndex v' => if v.length = v'.length then some (unequal v v') else none
  | .boolean v, .boolean v' => if v.length = v'.length then some (unequal v v') else none
  | .vector4 v, .vector4 v' => if v.length = v'.length then some (unequal v v') else none
  | _, _ => none

theorem editValues_eq (F : FloatOps) (t t' : TrackData) (ht : t.values.trackType = t'.values.trackType) (hl : t.values.len = t'.values.len) :
    editValues F t t' = editBytes (trackBytes F t) (trackBytes F t') := by
  rw [editValues, if_pos ⟨ht, hl⟩, trackBytes_eq, trackBytes_eq]

theorem editTrack_refl (F : FloatOps) (t : TrackData) : editTrack F t t = some 0 := by
  rw [editTrack, editText_refl, changed_self, zero_plus, zero_plus, editValues_eq F t t rfl rfl, editBytes_refl]

theorem editNode_refl (F : FloatOps) (n : NodeData) : editNode F n n = some 0 := by
  rw [editNode, editText_refl, zero_plus, editAll_refl (editTrack_refl F)]

theorem editAnimGroup_refl (F : FloatOps) (g : GroupData) : editAnimGroup F g g = some 0 := by
  rw [editAnimGroup, changed_self, zero_plus, editAll_refl (editNode_refl F)]

/-- Other values of the same type and number for one track, whose encoding is as long as before: only this encoding changes. -/
theorem C93_track (F : FloatOps) (d : AnimData) (i j m : Nat) (g : GroupData) (n : NodeData) (t : TrackData) (v : TrackValues)
    (hg : d.groups[i]? = some g) (hn : g.nodes[j]? = some n) (ht : n.tracks[m]? = some t)
    (hv : v.trackType = t.values.trackType) (hl : v.len = t.values.len) (e e' : Bytes)
    (he : t.values.write F (inferOptimalCompressionType t.values) t.compensate_scale = .ok e)
    (he' : v.write F (inferOptimalCompressionType v) t.compensate_scale = .ok e') (hsize : e'.length = e.length)
    (b : Bytes) (hb : d.write F = .ok b) :
    ∃ b', { d with groups := d.groups.set i { g with nodes := g.nodes.set j { n with tracks := n.tracks.set m { t with values := v } } } }.write F = .ok b' ∧
      CloseBytes (differences e e').card b b' := by
  have h : editAnim F d { d with groups := d.groups.set i { g with nodes := g.nodes.set j { n with tracks := n.tracks.set m { t with values := v } } } } =
      some (differences e e').card := by
    rw [editAnim, if_pos ⟨rfl, rfl⟩, changed_self, zero_plus, editAll_set (editAnimGroup_refl F) hg, editAnimGroup, changed_self, zero_plus,
      editAll_set (editNode_refl F) hn, editNode, editText_refl, zero_plus, editAll_set (editTrack_refl F) ht, editTrack, editText_refl, changed_self,
      zero_plus, zero_plus, editValues, if_pos ⟨hv.symm, hl.symm⟩, he, he']
    exact if_pos hsize.symm
  have := C93_anim F d _ _ h b hb
  obtain ⟨b', hb'⟩ := this.1 rfl
  exact ⟨b', hb', this.2 b' hb'⟩

/-! ## Tracks that are not compressed -/

theorem similar_vector4 (v v' : Vector4) : Similar Vector4.codec (editVector4 v v') v v' :=
  .struct _ (similar_iso (similar_pair (similar_f32 _ _) (similar_pair (similar_f32 _ _) (similar_pair (similar_f32 _ _) (similar_f32 _ _)))))

theorem similar_transform (v v' : UncompressedTransform) : Similar UncompressedTransform.codec
    (editVector3 v.scale v'.scale + (editVector4 v.rotation v'.rotation + (editVector3 v.translation v'.translation +
      changed 4 v.compensate_scale v'.compensate_scale))) v v' :=
  .struct _ (similar_iso (similar_pair (similar_vector3 _ _) (similar_pair (similar_vector4 _ _) (similar_pair (similar_vector3 _ _) (similar_u32 _ _)))))

theorem similar_uv (v v' : UvTransform) : Similar UvTransform.codec
    (changed 4 v.scale_u v'.scale_u + (changed 4 v.scale_v v'.scale_v + (changed 4 v.rotation v'.rotation + (changed 4 v.translate_u v'.translate_u +
      changed 4 v.translate_v v'.translate_v)))) v v' :=
  .struct _ (similar_iso (similar_pair (similar_f32 _ _) (similar_pair (similar_f32 _ _) (similar_pair (similar_f32 _ _) (similar_pair (similar_f32 _ _)
    (similar_f32 _ _))))))

theorem editAll_count [DecidableEq α] {c : α → α → Nat} {m : Nat} (hc : ∀ a a', c a a' ≤ changed m a a') : ∀ {l l' : List α}, l.length = l'.length →
    Upto (editAll (fun a a' => some (c a a')) l l') (m * unequal l l')
  | [], [], _ => .zero
  | [], _ :: _, h => by simp at h
  | _ :: _, [], h => by simp at h
  | a :: l, a' :: l', h => by
    rw [unequal_cons, Nat.mul_add]
    refine .plus ⟨c a a', (hc a a').trans ?_, rfl⟩ (editAll_count hc (Nat.succ.inj h))
    unfold changed
    split <;> simp

/-- The bytes of `v` are written, and those of `v'` are close to them. -/
theorem runWrite_close {c : Codec α} {k : Nat} {v v' : α} (h : Similar c k v v') {b : Bytes} (hb : runWrite c v = .ok b) :
    ∃ b', runWrite c v' = .ok b' ∧ CloseBytes k b b' := by
  have h1 := NearR.close (h.write 0 _ _ Near.init)
  rw [Nat.zero_add] at h1
  unfold runWrite at hb ⊢
  cases hw : c.write v W.init with
  | error e => rw [hw] at hb; cases hb
  | ok w =>
    rw [hw] at hb h1
    cases hb
    cases hw' : c.write v' W.init with
    | error e => rw [hw'] at h1; exact h1.elim
    | ok w' => rw [hw'] at h1; exact ⟨_, rfl, h1⟩

theorem slices_close [DecidableEq α] {c : Codec α} {e : α → α → Nat} {m : Nat} (hs : ∀ a a', Similar c (e a a') a a') (hc : ∀ a a', e a a' ≤ changed m a a')
    {l l' : List α} (hl : l.length = l'.length) {b : Bytes} (hb : runWrite (vecN 0 c) l = .ok b) :
    ∃ b', runWrite (vecN 0 c) l' = .ok b' ∧ CloseBytes (m * unequal l l') b b' := by
  obtain ⟨n, hn, he⟩ := editAll_count hc hl
  obtain ⟨b', h1, h2⟩ := runWrite_close (similar_vecN 0 (fun a a' k h => by cases h; exact hs a a') l l' n he) hb
  exact ⟨b', h1, h2.mono hn⟩

/-- The bytes of one value. -/
def frameBytes : TrackValues → Nat
  | .transform _ => 44
  | .uvTransform _ => 20
  | .float _ => 4
  | .patternIndex _ => 4
  | .boolean _ => 1
  | .vector4 _ => 16

theorem uncompressed_close (F : FloatOps) {v v' : TrackValues} {n : Nat} (h : changedFrames v v' = some n) {ct : Anim.CompressionType}
    (hct : ct ≠ .Compressed) (cs : Bool) {b : Bytes} (hb : v.write F ct cs = .ok b) :
    ∃ b', v'.write F ct cs = .ok b' ∧ CloseBytes (frameBytes v * n) b b' := by
  have h4 : ∀ {β : Type} [DecidableEq β] (x y : β), changed 4 x y ≤ 4 := fun x y => changed_le 4 x y
  unfold TrackValues.write at hb ⊢
  rw [if_neg hct] at hb
  dsimp only at hb ⊢
  rw [if_neg hct]
  have key : ∀ {β : Type} [DecidableEq β] {m : Nat} (e : β → β → Nat), (∀ a, e a a = 0) → (∀ a a', e a a' ≤ m) → ∀ a a', e a a' ≤ changed m a a' := by
    intro β _ m e h0 hm a a'
    unfold changed
    split
    · rename_i h; rw [h, h0]
    · exact hm a a'
  have v3 : ∀ a a' : Vector3, editVector3 a a' ≤ 12 := fun a a' => by
    have h1 := h4 a.x a'.x
    have h2 := h4 a.y a'.y
    have h3 := h4 a.z a'.z
    unfold editVector3
    omega
  have v4 : ∀ a a' : Vector4, editVector4 a a' ≤ 16 := fun a a' => by
    have h1 := h4 a.x a'.x
    have h2 := h4 a.y a'.y
    have h3 := h4 a.z a'.z
    have h5 := h4 a.w a'.w
    unfold editVector4
    omega
  unfold changedFrames at h
  split at h <;> try cases h
  all_goals
    split at h <;> try cases h
    rename_i v v' hl
    dsimp only [frameBytes] at hb ⊢
  · obtain ⟨b', h1, h2⟩ := slices_close similar_transform (m := 44) (l' := v'.map (UncompressedTransform.fromTransform · cs)) (key _ (fun a => by simp [editVector3, editVector4, changed_self]) fun a a' => by
      have h1 := v3 a.scale a'.scale
      have h2 := v4 a.rotation a'.rotation
      have h3 := v3 a.translation a'.translation
      have h5 := h4 a.compensate_scale a'.compensate_scale
      omega) (by simpa using hl) hb
    exact ⟨b', h1, h2.mono (Nat.mul_le_mul_left _ (unequal_map _ _ _))⟩
  · exact slices_close similar_uv (m := 20) (key _ (fun a => by simp [changed_self]) fun a a' => by
      have h1 := h4 a.scale_u a'.scale_u
      have h2 := h4 a.scale_v a'.scale_v
      have h3 := h4 a.rotation a'.rotation
      have h5 := h4 a.translate_u a'.translate_u
      have h6 := h4 a.translate_v a'.translate_v
      omega) hl hb
  · exact slices_close similar_f32 (m := 4) (fun _ _ => le_rfl) hl hb
  · exact slices_close similar_u32 (m := 4) (fun _ _ => le_rfl) hl hb
  · obtain ⟨b', h1, h2⟩ := slices_close (c := Boolean.codec) (m := 1) (l' := v'.map Boolean.ofBool) (fun a a' => .struct _ (similar_prim a a')) (fun _ _ => le_rfl) (by simpa using hl) hb
    exact ⟨b', h1, h2.mono (Nat.mul_le_mul_left _ (unequal_map _ _ _))⟩
  · exact slices_close similar_vector4 (m := 16) (key _ (fun a => by simp [editVector4, changed_self]) v4) hl hb

/-! ## Visibility -/

theorem unequal_split [DecidableEq α] : ∀ (n : Nat) (l l' : List α), unequal l l' = unequal (l.take n) (l'.take n) + unequal (l.drop n) (l'.drop n)
  | 0, l, l' => by simp [unequal]
  | n + 1, [], l' => by simp [unequal]
  | n + 1, _ :: _, [] => by simp [unequal]
  | n + 1, a :: l, a' :: l' => by
    rw [List.take_succ_cons, List.take_succ_cons, List.drop_succ_cons, List.drop_succ_cons, unequal_cons, unequal_cons, unequal_split n l l']
    omega

theorem unequal_pos [DecidableEq α] : ∀ {l l' : List α}, l.length = l'.length → l ≠ l' → 1 ≤ unequal l l'
  | [], [], _, h => absurd rfl h
  | [], _ :: _, h, _ => by simp at h
  | _ :: _, [], h, _ => by simp at h
  | a :: l, a' :: l', h, hne => by
    rw [unequal_cons]
    unfold changed
    split
    · rename_i ha
      have := unequal_pos (Nat.succ.inj h) (fun he => hne (by rw [ha, he]))
      omega
    · omega

theorem bits_close (l l' : List Bool) (h : l.length = l'.length) : CloseBytes (unequal l l') (bitsToBytes l) (bitsToBytes l') := by
  refine ⟨by rw [bitsToBytes_length, bitsToBytes_length, h], ?_⟩
  induction hn : l.length using Nat.strong_induction_on generalizing l l' with
  | _ n ih =>
    subst hn
    cases l with
    | nil =>
      cases l' with
      | nil => exact (differences_self _).le.trans (Nat.zero_le _)
      | cons => simp at h
    | cons a l =>
      obtain ⟨a', l', rfl⟩ : ∃ a' m, l' = a' :: m := by
        cases l' with
        | nil => simp at h
        | cons a' m => exact ⟨a', m, rfl⟩
      rw [bitsToBytes_step (a :: l) (by simp), bitsToBytes_step (a' :: l') (by simp)]
      have h1 := differences_append (a := [UInt8.ofNat (loadLe ((a :: l).take 8))]) (a' := [UInt8.ofNat (loadLe ((a' :: l').take 8))])
        (b := bitsToBytes ((a :: l).drop 8)) (b' := bitsToBytes ((a' :: l').drop 8)) rfl
      have h2 := ih ((a :: l).drop 8).length (by simp) ((a :: l).drop 8) ((a' :: l').drop 8) (by simp only [List.length_drop, h]) rfl
      have h3 := unequal_split 8 (a :: l) (a' :: l')
      have h4 : (differences [UInt8.ofNat (loadLe ((a :: l).take 8))] [UInt8.ofNat (loadLe ((a' :: l').take 8))]).card ≤
          unequal ((a :: l).take 8) ((a' :: l').take 8) := by
        by_cases he : (a :: l).take 8 = (a' :: l').take 8
        · rw [he, differences_self]; exact Nat.zero_le _
        · refine le_trans ?_ (unequal_pos (by simp only [List.length_take, h]) he)
          exact differences_le _ _
      rw [List.singleton_append, List.singleton_append] at h1
      omega

theorem flags_boolean (F : FloatOps) (v v' : List Bool) : CompressionFlags.fromTrack F (.boolean v) = CompressionFlags.fromTrack F (.boolean v') := rfl

theorem compressedBuffer_similar {b b' : Bytes} {k : Nat} (h : editAll (fun x x' => some (changed 1 x x')) b b' = some k) : Similar compressedBuffer k b b' := by
  have hs : ∀ x x' k, (fun x x' : UInt8 => some (changed 1 x x')) x x' = some k → Similar u8 k x x' := fun x x' k h => by cases h; exact similar_prim x x'
  have hl := (elems_similar hs b b' k h).2.1
  refine ⟨hl, fun j w w' hw => ?_⟩
  show NearR _ (writeSlice u8 b (w.bump (sliceSize u8 b))) (writeSlice u8 b' (w'.bump (sliceSize u8 b')))
  rw [← hl]
  exact slice_similar hs h j _ _ (hw.bump _)

theorem editBytes_all {b b' : Bytes} (h : b.length = b'.length) : ∃ k, k ≤ (differences b b').card ∧ editAll (fun x x' => some (changed 1 x x')) b b' = some k := by
  obtain ⟨n, hn, he⟩ := editAll_count (c := fun x x' : UInt8 => changed 1 x x') (m := 1) (fun _ _ => le_rfl) h
  refine ⟨n, hn.trans ?_, he⟩
  rw [Nat.one_mul]
  exact unequal_card (differences b b') b b' 0 (fun i a a' h1 h2 hne => by
    rw [Nat.add_zero, mem_differences, h1, h2]
    exact fun h => hne (Option.some.inj h)) |>.trans (Finset.card_filter_le _ _)

theorem booleanTrack_similar (flags : CompressionFlags) (n : UInt32) {buf buf' : Bytes} {k : Nat}
    (h : editAll (fun x x' => some (changed 1 x x')) buf buf' = some k) :
    Similar (CompressedTrackData.codec .boolean) k ⟨⟨4, flags, some (0 : UInt8), 1, some buf, n⟩, (0 : BitVec 128)⟩
      ⟨⟨4, flags, some (0 : UInt8), 1, some buf', n⟩, (0 : BitVec 128)⟩ := by
  have h1 : Similar (absPtr 2 Boolean.codec) 0 (some (0 : UInt8)) (some 0) :=
    similar_absPtr (f := fun a a' : UInt8 => some (changed 1 a a')) 2 (fun a a' k h => by cases h; exact .struct _ (similar_prim a a')) rfl
  have h2 : Similar (absPtr 4 compressedBuffer) k (some buf) (some buf') :=
    similar_absPtr (f := editAll fun x x' => some (changed 1 x x')) 4 (fun a a' k h => compressedBuffer_similar h) h
  have h0 : ∀ {m : Nat} {α : Type} {toNat : α → Nat} {ofNat : Nat → Option α} (x : α), Similar (prim m toNat ofNat) 0 x x := fun x =>
    ⟨rfl, fun j w w' hw => .ok (hw.put _)⟩
  have h3 : Similar (CompressedHeader.codec Boolean.codec compressedBuffer) (0 + (0 + (0 + (0 + (k + 0))))) ⟨4, flags, some (0 : UInt8), 1, some buf, n⟩
      ⟨4, flags, some (0 : UInt8), 1, some buf', n⟩ :=
    .struct _ (similar_iso (similar_pair (h0 _) (similar_pair ?_ (similar_pair h1 (similar_pair (h0 _) (similar_pair h2 (h0 _)))))))
  · have h4 : Similar (CompressedTrackData.codec .boolean) ((0 + (0 + (0 + (0 + (k + 0))))) + 0) ⟨⟨4, flags, some (0 : UInt8), 1, some buf, n⟩, (0 : BitVec 128)⟩
        ⟨⟨4, flags, some (0 : UInt8), 1, some buf', n⟩, (0 : BitVec 128)⟩ := .struct _ (similar_iso (similar_pair h3 (show Similar u128 0 (0 : BitVec 128) 0 from h0 _)))
    simpa using h4
  · exact .struct _ (h0 _)

theorem boolean_bits (v : List Bool) : (v.map Boolean.ofBool).flatMap (fun x => [x.toBool]) = v := by
  induction v with
  | nil => rfl
  | cons b v ih =>
    rw [List.map_cons, List.flatMap_cons, ih, TrackValues.ofBool_toBool]
    rfl

theorem writeBoolean (F : FloatOps) (v : List Bool) (cs : Bool) : (TrackValues.boolean v).write F .Compressed cs =
    runWrite (CompressedTrackData.codec .boolean) ⟨⟨4, CompressionFlags.fromTrack F (.boolean v), some (0 : UInt8), 1, some (bitsToBytes v), UInt32.ofNat v.length⟩,
      (0 : BitVec 128)⟩ := by
  have := (booleanLaw (0 : BitVec 128) (CompressionFlags.fromTrack F (.boolean v)) 0).createBuffer (v.map Boolean.ofBool) fun _ _ => trivial
  rw [boolean_bits] at this
  unfold TrackValues.write
  dsimp only
  rw [if_pos rfl]
  unfold writeCompressed
  show (match createCompressedBuffer .boolean (v.map Boolean.ofBool) (0 : BitVec 128) _ with | .error e => _ | .ok buffer => _) = _
  rw [this, List.length_map]
  rfl

theorem boolean_close (F : FloatOps) {v v' : List Bool} (hl : v.length = v'.length) (ct : Anim.CompressionType) (cs : Bool) {b : Bytes}
    (hb : (TrackValues.boolean v).write F ct cs = .ok b) : ∃ b', (TrackValues.boolean v').write F ct cs = .ok b' ∧ CloseBytes (unequal v v') b b' := by
  by_cases hct : ct = .Compressed
  · subst hct
    rw [writeBoolean] at hb ⊢
    obtain ⟨h1, h2⟩ := bits_close v v' hl
    obtain ⟨k, hk, he⟩ := editBytes_all h1.symm
    obtain ⟨b', h3, h4⟩ := runWrite_close (booleanTrack_similar _ _ he) hb
    rw [← hl]
    exact ⟨b', h3, h4.mono (hk.trans h2)⟩
  · have := uncompressed_close F (v := .boolean v) (v' := .boolean v') (if_pos hl) hct cs hb
    rwa [show frameBytes (.boolean v) = 1 from rfl, Nat.one_mul] at this

/-! ## Corollaries -/

theorem changedFrames_same {v v' : TrackValues} {n : Nat} (h : changedFrames v v' = some n) : v'.trackType = v.trackType ∧ v'.len = v.len := by
  unfold changedFrames at h
  split at h <;> try cases h
  all_goals
    split at h <;> try cases h
    rename_i hl
    exact ⟨rfl, hl.symm⟩

/-- Tracks with at most this many frames are not compressed. -/
def fewFrames : TrackValues → Nat
  | .transform _ => 5
  | .uvTransform _ => 6
  | .float _ => 10
  | .patternIndex _ => 10
  | .boolean _ => 34
  | .vector4 _ => 7

theorem few_uncompressed {v : TrackValues} (h : v.len ≤ fewFrames v) : inferOptimalCompressionType v ≠ .Compressed := by
  have ho : v.overhead / v.dataSize + 1 = fewFrames v := by cases v <;> simp only [TrackValues.overhead, TrackValues.dataSize, fewFrames] <;> decide +kernel
  unfold inferOptimalCompressionType
  split
  · split <;> exact nofun
  · rw [if_neg (by omega)]
    exact nofun

/-- Changing values of a track with few frames, which is not compressed: at most the bytes of the changed values change. -/
theorem C93_frames (F : FloatOps) (d : AnimData) (i j m : Nat) (g : GroupData) (n : NodeData) (t : TrackData) (v : TrackValues)
    (hg : d.groups[i]? = some g) (hn : g.nodes[j]? = some n) (ht : n.tracks[m]? = some t)
    (hu : t.values.len ≤ fewFrames t.values) (k : Nat) (hk : changedFrames t.values v = some k)
    (b : Bytes) (hb : d.write F = .ok b) :
    ∃ b', { d with groups := d.groups.set i { g with nodes := g.nodes.set j { n with tracks := n.tracks.set m { t with values := v } } } }.write F = .ok b' ∧
      CloseBytes (frameBytes t.values * k) b b' := by
  obtain ⟨h1, h2⟩ := changedFrames_same hk
  obtain ⟨e', h3, h4⟩ := uncompressed_close F hk (few_uncompressed hu) t.compensate_scale (trackBytes_eq F t)
  rw [← infer_unchanged h1 h2] at h3
  obtain ⟨b', h5, h6⟩ := C93_track F d i j m g n t v hg hn ht h1 h2 _ e' (trackBytes_eq F t) h3 h4.1 b hb
  exact ⟨b', h5, h6.mono h4.2⟩

/-- Changing the visibility in some frames changes at most as many bytes as frames, compressed or not. -/
theorem C93_visibility (F : FloatOps) (d : AnimData) (i j m : Nat) (g : GroupData) (n : NodeData) (t : TrackData) (v v' : List Bool)
    (hg : d.groups[i]? = some g) (hn : g.nodes[j]? = some n) (ht : n.tracks[m]? = some t) (hv : t.values = .boolean v)
    (hl : v.length = v'.length) (b : Bytes) (hb : d.write F = .ok b) :
    ∃ b', { d with groups := d.groups.set i { g with nodes := g.nodes.set j { n with tracks := n.tracks.set m { t with values := .boolean v' } } } }.write F =
      .ok b' ∧ CloseBytes (unequal v v') b b' := by
  have he := trackBytes_eq F t
  rw [hv] at he
  obtain ⟨e', h3, h4⟩ := boolean_close F hl _ t.compensate_scale he
  have hi : inferOptimalCompressionType (.boolean v) = inferOptimalCompressionType (.boolean v') := infer_unchanged rfl hl
  rw [hi] at h3
  obtain ⟨b', h5, h6⟩ := C93_track F d i j m g n t (.boolean v') hg hn ht (by rw [hv]; rfl) (by rw [hv]; exact hl.symm) _ e' (trackBytes_eq F t) h3 h4.1 b hb
  exact ⟨b', h5, h6.mono h4.2⟩

/-! ## Concrete cases -/

/-- One track with a single value and one with the visibility in many frames. -/
def shownAnim : AnimData := ⟨2, 0, 0x42700000, [⟨.Visibility, [⟨"mesh", [⟨"Visibility", false, ⟨false, false, false, false⟩,
    .boolean (List.replicate 40 true)⟩]⟩]⟩, ⟨.Material, [⟨"mat", [⟨"CustomVector0", false, ⟨false, false, false, false⟩,
    .vector4 [⟨1, 2, 3, 4⟩]⟩]⟩]⟩]⟩

example : inferOptimalCompressionType (.boolean (List.replicate 40 true)) = .Compressed := by decide +kernel

/-- Hiding the mesh in frame 7 changes at most one byte. -/
example (F : FloatOps) (b : Bytes) (hb : shownAnim.write F = .ok b) :
    ∃ b', { shownAnim with groups := shownAnim.groups.set 0 ⟨.Visibility, [⟨"mesh", [⟨"Visibility", false, ⟨false, false, false, false⟩,
      .boolean ((List.replicate 40 true).set 7 false)⟩]⟩]⟩ }.write F = .ok b' ∧ CloseBytes 1 b b' :=
  C93_visibility F shownAnim 0 0 0 ⟨.Visibility, _⟩ ⟨"mesh", _⟩ ⟨"Visibility", false, _, _⟩ _ _ rfl rfl rfl rfl (by decide) b hb

/-- Changing a constant vector changes at most 16 bytes. -/
example (F : FloatOps) (x : Vector4) (b : Bytes) (hb : shownAnim.write F = .ok b) :
    ∃ b', { shownAnim with groups := shownAnim.groups.set 1 ⟨.Material, [⟨"mat", [⟨"CustomVector0", false, ⟨false, false, false, false⟩,
      .vector4 [x]⟩]⟩]⟩ }.write F = .ok b' ∧ CloseBytes 16 b b' := by
  obtain ⟨b', h1, h2⟩ := C93_frames F shownAnim 1 0 0 ⟨.Material, _⟩ ⟨"mat", _⟩ ⟨"CustomVector0", false, _, _⟩ (.vector4 [x]) rfl rfl rfl
    (by decide +kernel) (unequal [⟨1, 2, 3, 4⟩] [x]) rfl b hb
  refine ⟨b', h1, h2.mono ?_⟩
  have h3 := changed_le 1 (⟨1, 2, 3, 4⟩ : Vector4) x
  have h4 : unequal [⟨1, 2, 3, 4⟩] [x] = changed 1 (⟨1, 2, 3, 4⟩ : Vector4) x + 0 := unequal_cons _ _ [] []
  show 16 * _ ≤ 16
  omega

end Verif.Props
