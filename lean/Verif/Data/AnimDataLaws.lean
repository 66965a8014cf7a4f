import Verif.Data.AnimTrackLaws
import Verif.Data.AnimData
import Verif.Data.TextLaws
/-!
# Lemmas about the conversion between AnimData and Anim
-/

namespace Verif.AnimData

/-- The bytes of a track. -/
def trackBytes (F : FloatOps) (t : TrackData) : Bytes :=
  match t.values.write F (inferOptimalCompressionType t.values) t.compensate_scale with
  | .ok b => b
  | .error _ => []

def nodeBytes (F : FloatOps) (n : NodeData) : Bytes := n.tracks.flatMap (trackBytes F)
def groupBytes (F : FloatOps) (g : GroupData) : Bytes := g.nodes.flatMap (nodeBytes F)

/-- Map with the offset where the bytes of an element start. -/
def scanMap (g : Nat → α → β) (e : α → Bytes) : Nat → List α → List β
  | _, [] => []
  | n, x :: xs => g n x :: scanMap g e (n + (e x).length) xs

theorem mapState_scan {f : Bytes → α → Except ε (β × Bytes)} {g : Nat → α → β} {e : α → Bytes}
    (h : ∀ s x, f s x = .ok (g s.length x, s ++ e x)) : ∀ (xs : List α) (s : Bytes),
    mapState f s xs = .ok (scanMap g e s.length xs, s ++ xs.flatMap e)
  | [], s => by simp [mapState, scanMap]
  | x :: xs, s => by
    simp only [mapState, h, mapState_scan h xs, scanMap, List.flatMap_cons, List.length_append, List.append_assoc]

/-- The track at an offset. -/
def trackAt (F : FloatOps) (offset : Nat) (t : TrackData) : Anim.TrackV2 where
  name := ssbhText t.name
  flags := ⟨t.values.trackType, inferOptimalCompressionType t.values⟩
  frame_count := UInt32.ofNat t.values.len
  transform_flags := t.transform_flags.toAnim
  data_offset := UInt32.ofNat offset
  data_size := UInt64.ofNat (trackBytes F t).length

def nodeAt (F : FloatOps) (offset : Nat) (n : NodeData) : Anim.Node :=
  ⟨ssbhText n.name, scanMap (trackAt F) (trackBytes F) offset n.tracks⟩

def groupAt (F : FloatOps) (offset : Nat) (g : GroupData) : Anim.Group :=
  ⟨g.group_type, scanMap (nodeAt F) (nodeBytes F) offset g.nodes⟩

def groupsOf (F : FloatOps) (groups : List GroupData) : List Anim.Group :=
  scanMap (groupAt F) (groupBytes F) 0 groups

theorem track_write_ok (F : FloatOps) (values : TrackValues) (ct : Anim.CompressionType) (cs : Bool) :
    ∃ b, values.write F ct cs = .ok b := by
  by_cases h : ct = .Compressed
  · subst h
    obtain ⟨b, h, _⟩ := values.compressed F cs
    exact ⟨b, h⟩
  · obtain ⟨b, h, _⟩ := values.uncompressed F ct h cs
    exact ⟨b, h⟩

theorem trackBytes_eq (F : FloatOps) (t : TrackData) :
    t.values.write F (inferOptimalCompressionType t.values) t.compensate_scale = .ok (trackBytes F t) := by
  obtain ⟨b, h⟩ := track_write_ok F t.values (inferOptimalCompressionType t.values) t.compensate_scale
  simp [trackBytes, h]

theorem createTrack_eq (F : FloatOps) (s : Bytes) (t : TrackData) :
    createTrack F s t = .ok (trackAt F s.length t, s ++ trackBytes F t) := by
  simp only [createTrack, trackBytes_eq]
  rfl

theorem createNode_eq (F : FloatOps) (s : Bytes) (n : NodeData) :
    createNode F s n = .ok (nodeAt F s.length n, s ++ nodeBytes F n) := by
  simp only [createNode, mapState_scan (createTrack_eq F)]
  rfl

theorem createGroup_eq (F : FloatOps) (s : Bytes) (g : GroupData) :
    createGroup F s g = .ok (groupAt F s.length g, s ++ groupBytes F g) := by
  simp only [createGroup, mapState_scan (createNode_eq F)]
  rfl

theorem createGroups_eq (F : FloatOps) (groups : List GroupData) :
    mapState (createGroup F) [] groups = .ok (groupsOf F groups, groups.flatMap (groupBytes F)) := by
  rw [mapState_scan (createGroup_eq F)]
  rfl

/-- Conversion without the error plumbing. -/
theorem create_eq (F : FloatOps) (data : AnimData) : create F data =
    if data.major_version = 2 ∧ (data.minor_version = 0 ∨ data.minor_version = 1) then
      if F.ge data.final_frame_index 0 &&
          F.ge data.final_frame_index (F.lastFrame (maxFrameCount (groupsOf F data.groups))) then
        if data.minor_version = 0 then
          .ok (.V20 ⟨data.final_frame_index, 1, 3, ssbhText "", groupsOf F data.groups,
            data.groups.flatMap (groupBytes F)⟩)
        else
          .ok (.V21 ⟨data.final_frame_index, 1, 3, ssbhText "", groupsOf F data.groups,
            data.groups.flatMap (groupBytes F), ⟨[], []⟩⟩)
      else .error (.invalidFinalFrameIndex data.final_frame_index)
    else .error (.unsupportedVersion data.major_version.toNat data.minor_version.toNat) := by
  unfold create
  simp only [createGroups_eq]
  by_cases h1 : data.major_version = 2 <;> by_cases h2 : data.minor_version = 0 <;>
    by_cases h3 : data.minor_version = 1 <;> simp [h1, h2, h3]

/-! ## Reading back -/

theorem mapExcept_scan {r : β → Except ε γ} {g : Nat → α → β} {e : α → Bytes} {h : α → γ} {buffer : Bytes} :
    ∀ (xs : List α) (pre post : Bytes), buffer = pre ++ xs.flatMap e ++ post →
    (∀ x ∈ xs, ∀ pre post, buffer = pre ++ e x ++ post → r (g pre.length x) = .ok (h x)) →
    mapExcept r (scanMap g e pre.length xs) = .ok (xs.map h)
  | [], _, _, _, _ => rfl
  | x :: xs, pre, post, hb, hr => by
    have h1 := hr x List.mem_cons_self pre (xs.flatMap e ++ post) (by rw [hb]; simp)
    have h2 := mapExcept_scan (r := r) (g := g) (e := e) (h := h) (buffer := buffer) xs (pre ++ e x) post
      (by rw [hb]; simp) (fun y hy => hr y (List.mem_cons_of_mem _ hy))
    rw [List.length_append] at h2
    simp only [scanMap, mapExcept, h1, h2, List.map_cons]

/-- What is read back for a track. -/
def readBack (F : FloatOps) (t : TrackData) : TrackData where
  name := cutNul t.name
  compensate_scale := t.values.keptCompensateScale t.compensate_scale
  transform_flags := t.transform_flags
  values := if inferOptimalCompressionType t.values = .Compressed then
      (t.values.quantized F t.compensate_scale).1 else t.values

theorem TransformFlags.round_trip (f : TransformFlags) : TransformFlags.ofAnim f.toAnim = f := by
  obtain ⟨a, b, c, d⟩ := f
  cases a <;> cases b <;> cases c <;> cases d <;> decide

theorem quantized_compensate (F : FloatOps) (values : TrackValues) (cs : Bool) :
    (values.quantized F cs).2 = values.keptCompensateScale cs := by
  cases values with
  | transform vs =>
    cases vs with
    | nil => simp [TrackValues.quantized, TrackValues.keptCompensateScale, storedFrames, firstCompensateScale]
    | cons v vs =>
      simp only [TrackValues.quantized, TrackValues.keptCompensateScale, storedFrames]
      split <;> cases cs <;> rfl
  | _ => rfl

theorem readTrack_eq (F : FloatOps) {buffer : Bytes} (hb : buffer.length < 2 ^ 32) {t : TrackData}
    (hl : t.values.len < 2 ^ 32) {pre post : Bytes} (h : buffer = pre ++ trackBytes F t ++ post) :
    readTrack F buffer (trackAt F pre.length t) = .ok (readBack F t) := by
  have hlen : pre.length + (trackBytes F t).length + post.length = buffer.length := by rw [h]; simp; omega
  have e1 : (UInt32.ofNat pre.length).toNat = pre.length := by
    rw [UInt32.toNat_ofNat', Nat.mod_eq_of_lt (by omega)]
  have e2 : (UInt64.ofNat (trackBytes F t).length).toNat = (trackBytes F t).length := by
    rw [UInt64.toNat_ofNat', Nat.mod_eq_of_lt (by omega)]
  have e3 : (UInt32.ofNat t.values.len).toNat = t.values.len := by
    rw [UInt32.toNat_ofNat', Nat.mod_eq_of_lt hl]
  have e4 : (buffer.drop pre.length).take (trackBytes F t).length = trackBytes F t := by
    rw [h, List.append_assoc, List.drop_left, List.take_left]
  simp only [readTrack, trackAt, e1, e2, e3, e4]
  rw [if_pos (by omega)]
  have hw := trackBytes_eq F t
  have hr : readTrackValues F (trackBytes F t) ⟨t.values.trackType, inferOptimalCompressionType t.values⟩
      t.values.len = .ok ((readBack F t).values, (readBack F t).compensate_scale) := by
    by_cases hc : inferOptimalCompressionType t.values = .Compressed
    · obtain ⟨b, hw', _, hr⟩ := t.values.compressed F t.compensate_scale
      rw [hc, hw'] at hw
      simp only [Except.ok.injEq] at hw
      have := hr []
      rw [List.append_nil, hw] at this
      rw [hc, this]
      simp only [readBack, hc, if_true, ← quantized_compensate F]
    · obtain ⟨b, hw', _, hr⟩ := t.values.uncompressed F _ hc t.compensate_scale
      rw [hw'] at hw
      simp only [Except.ok.injEq] at hw
      have := hr []
      rw [List.append_nil, hw] at this
      rw [this]
      simp only [readBack, hc, if_false]
  rw [hr]
  simp only [toStringLossy_ssbhText, TransformFlags.round_trip]
  rfl

def readBackNode (F : FloatOps) (n : NodeData) : NodeData := ⟨cutNul n.name, n.tracks.map (readBack F)⟩
def readBackGroup (F : FloatOps) (g : GroupData) : GroupData := ⟨g.group_type, g.nodes.map (readBackNode F)⟩

theorem readGroups_eq (F : FloatOps) (groups : List GroupData)
    (hb : (groups.flatMap (groupBytes F)).length < 2 ^ 32)
    (hl : ∀ g ∈ groups, ∀ n ∈ g.nodes, ∀ t ∈ n.tracks, t.values.len < 2 ^ 32) :
    readGroupsV20 F (groupsOf F groups) (groups.flatMap (groupBytes F)) = .ok (groups.map (readBackGroup F)) := by
  refine mapExcept_scan (buffer := groups.flatMap (groupBytes F)) groups [] [] (by simp) fun g hg pre post h => ?_
  have : mapExcept (readNode F (groups.flatMap (groupBytes F))) (scanMap (nodeAt F) (nodeBytes F) pre.length g.nodes)
      = .ok (g.nodes.map (readBackNode F)) := by
    refine mapExcept_scan g.nodes pre post h fun n hn pre post h => ?_
    have : mapExcept (readTrack F (groups.flatMap (groupBytes F)))
        (scanMap (trackAt F) (trackBytes F) pre.length n.tracks) = .ok (n.tracks.map (readBack F)) :=
      mapExcept_scan n.tracks pre post h fun t ht pre post h => readTrack_eq F hb (hl g hg n hn t ht) h
    simp only [readNode, nodeAt, this, toStringLossy_ssbhText]
    rfl
  simp only [readGroup, groupAt, this]
  rfl

end Verif.AnimData
