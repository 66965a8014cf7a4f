import Verif.Props.Shrink
import Verif.Props.OpenedSize
import Verif.Props.MeshKept
import Verif.Props.Rotations
/-!
# C88: opening and saving animations of other programs

With the float operations of the code.
-/

namespace Verif.Props
open Verif Ieee AnimData

/-! ## Description -/

/-- Tracks which keep every bit of their values: booleans, pattern indices without two values `2 ^ 24` apart, and short
tracks. -/
def ExactValues : TrackValues → Prop
  | .boolean _ => True
  | .patternIndex vs => vs.length ≤ 10 ∨ ∀ u ∈ vs, ∀ v ∈ vs, u.toNat < v.toNat + 2 ^ 24
  | .transform vs => vs.length ≤ 5
  | .uvTransform vs => vs.length ≤ 6
  | .float vs => vs.length ≤ 10
  | .vector4 vs => vs.length ≤ 7

/-- What is left of a track. -/
structure TrackAfter (t t' : TrackData) : Prop where
  name : t'.name = t.name
  flags : t'.transform_flags = t.transform_flags
  compensate : t'.compensate_scale = t.compensate_scale
  type : t'.values.trackType = t.values.trackType
  frames : t'.values.len ≤ t.values.len
  values : AllClose t.values t'.values
  rotations : RotationsKept t.values t'.values
  exact : ExactValues t.values → t' = t

/-- What is left of an animation: the same groups, nodes and tracks in the same order. -/
structure AnimAfter (d d' : AnimData) : Prop where
  major : d'.major_version = d.major_version
  minor : d'.minor_version = d.minor_version
  index : d'.final_frame_index = d.final_frame_index
  groups : List.Forall₂ (fun g g' : GroupData => g'.group_type = g.group_type ∧
    List.Forall₂ (fun n n' : NodeData => n'.name = n.name ∧ List.Forall₂ TrackAfter n.tracks n'.tracks) g.nodes g'.nodes)
    d.groups d'.groups

/-! ## Opened animations -/

theorem trackOf_length {S : Storage T} {flags : Anim.TrackFlags} {b : Bytes} {count : Nat} {vs : List T}
    (h : TrackOf S flags b count vs) : vs.length ≤ count := by
  unfold TrackOf at h
  split at h
  · obtain ⟨_, _, _, _, _, _, _, _, _, _, _, _, _, _, hl, _⟩ := h
    split at hl <;> omega
  · exact Nat.le_of_eq h.1

theorem showsValues_count {F : FloatOps} {b : Bytes} {flags : Anim.TrackFlags} {count : Nat} {compensate : Bool}
    {vs : TrackValues} (h : ShowsValues F b flags count compensate vs) : vs.len ≤ count := by
  cases vs with
  | transform vs =>
    obtain ⟨-, ts, h, rfl, -⟩ := h
    rw [TrackValues.len, List.length_map]
    exact trackOf_length h
  | boolean vs =>
    obtain ⟨-, -, bs, h, rfl⟩ := h
    rw [TrackValues.len, List.length_map]
    exact trackOf_length h
  | uvTransform vs => exact trackOf_length h.2.2
  | float vs => exact trackOf_length h.2.2
  | patternIndex vs => exact trackOf_length h.2.2
  | vector4 vs => exact trackOf_length h.2.2

/-- Only transforms have the flag, and only with a frame. -/
def compensated (vs : TrackValues) (compensate : Bool) : Bool :=
  match vs with
  | .transform (_ :: _) => compensate
  | _ => false

theorem showsValues_compensate {F : FloatOps} {b : Bytes} {flags : Anim.TrackFlags} {count : Nat} {compensate : Bool}
    {vs : TrackValues} (h : ShowsValues F b flags count compensate vs) : compensated vs compensate = compensate := by
  cases vs with
  | transform vs =>
    obtain ⟨-, ts, -, rfl, hc⟩ := h
    cases ts with
    | nil =>
      show false = compensate
      cases compensate with
      | false => rfl
      | true =>
        obtain ⟨t, ht, -⟩ := hc.mp rfl
        cases ht
    | cons => rfl
  | boolean vs => exact h.2.1.symm
  | uvTransform vs => exact h.2.1.symm
  | float vs => exact h.2.1.symm
  | patternIndex vs => exact h.2.1.symm
  | vector4 vs => exact h.2.1.symm

/-- What is known about a track of an opened animation. -/
structure OpenedTrack (t : TrackData) : Prop where
  name : cutNul t.name = t.name
  frames : t.values.len < 2 ^ 32
  compensate : compensated t.values t.compensate_scale = t.compensate_scale

theorem opened_groups {F : FloatOps} {buffer : Bytes} {ds : List GroupData} {gs : List Anim.Group}
    (h : ShowsGroups F buffer ds gs) : ∀ g ∈ ds, ∀ n ∈ g.nodes, cutNul n.name = n.name ∧ ∀ t ∈ n.tracks, OpenedTrack t := by
  intro g hg n hn
  obtain ⟨g', -, -, h2⟩ := forall₂_mem h g hg
  obtain ⟨n', -, h3, h4⟩ := forall₂_mem h2 n hn
  refine ⟨isText_cut h3, fun t ht => ?_⟩
  obtain ⟨t', -, h5⟩ := forall₂_mem h4 t ht
  exact ⟨isText_cut h5.name, Nat.lt_of_le_of_lt (showsValues_count h5.values) t'.frame_count.toNat_lt,
    showsValues_compensate h5.values⟩

theorem opened_shows {F : FloatOps} {bytes : Bytes} {d : AnimData} (h : AnimData.read F bytes = some (.ok d)) :
    ∃ a, readAs Anim bytes = .ok a ∧ ShowsAnim F d a := by
  unfold AnimData.read at h
  cases ha : readAs Anim bytes with
  | error e => rw [ha] at h; cases h
  | ok a =>
    rw [ha] at h
    simp only [liftRead] at h
    refine ⟨a, rfl, (ofAnim_iff ..).mp ?_⟩
    cases ho : ofAnim F a with
    | none => rw [ho] at h; cases h
    | some r =>
      rw [ho] at h
      cases r with
      | error e => cases e <;> cases h
      | ok d' => cases h; rfl

theorem opened {F : FloatOps} {bytes : Bytes} {d : AnimData} (h : AnimData.read F bytes = some (.ok d)) :
    SupportedVersion d ∧ ∀ g ∈ d.groups, ∀ n ∈ g.nodes, cutNul n.name = n.name ∧ ∀ t ∈ n.tracks, OpenedTrack t := by
  obtain ⟨a, -, hs⟩ := opened_shows h
  cases a with
  | V12 a => cases hs
  | V20 a => exact ⟨⟨hs.1, .inl hs.2.1⟩, opened_groups hs.2.2.2⟩
  | V21 a => exact ⟨⟨hs.1, .inr hs.2.1⟩, opened_groups hs.2.2.2⟩

theorem mem_dataTracks {groups : List GroupData} {t : TrackData} :
    t ∈ dataTracks groups ↔ ∃ g ∈ groups, ∃ n ∈ g.nodes, t ∈ n.tracks := by
  simp only [dataTracks, List.mem_flatMap]

theorem opened_frames {F : FloatOps} {bytes : Bytes} {d : AnimData} (h : AnimData.read F bytes = some (.ok d)) :
    ∀ t ∈ dataTracks d.groups, t.values.len < 2 ^ 32 := by
  intro t ht
  obtain ⟨g, hg, n, hn, ht⟩ := mem_dataTracks.mp ht
  exact (((opened h).2 g hg n hn).2 t ht).frames

/-! ## Tracks -/

theorem kept_exact {t t' : TrackData} (h : Kept ops t t') (he : ExactValues t.values) : t'.values = t.values := by
  by_cases hc : inferOptimalCompressionType t.values = .Compressed
  · obtain ⟨b, hw, hr⟩ := h.decoded
    obtain ⟨_, _, _, _, hi, _⟩ := C30_sizes_partial ops t.values t.compensate_scale
    have hi := hi.mp hc
    rw [hc] at hw hr
    cases hv : t.values with
    | boolean vs =>
      rw [hv] at hw hr
      obtain ⟨b', hw', hr'⟩ := C22_boolean_lossless ops vs t.compensate_scale
      rw [hw] at hw'
      cases hw'
      have := hr' []
      rw [List.append_nil] at this
      have := hr.symm.trans this
      injection this with e
      exact congrArg Prod.fst e
    | patternIndex vs =>
      rw [hv] at hw hr he hi
      obtain ⟨b', hw', hr'⟩ := C23_pattern_lossless_partial ops vs t.compensate_scale
      rw [hw] at hw'
      cases hw'
      have := (hr' []).mpr (he.resolve_left (by simp only at hi; omega))
      rw [List.append_nil] at this
      have := hr.symm.trans this
      injection this with e
      exact congrArg Prod.fst e
    | transform vs => rw [hv] at he hi; simp only [ExactValues] at he hi; omega
    | uvTransform vs => rw [hv] at he hi; simp only [ExactValues] at he hi; omega
    | float vs => rw [hv] at he hi; simp only [ExactValues] at he hi; omega
    | vector4 vs => rw [hv] at he hi; simp only [ExactValues] at he hi; omega
  · exact h.exact hc

theorem kept_rotations {t t' : TrackData} (h : Kept ops t t') : RotationsKept t.values t'.values := by
  by_cases hc : inferOptimalCompressionType t.values = .Compressed
  · obtain ⟨b, hw, hr⟩ := h.decoded
    obtain ⟨b', hw', hr'⟩ := C55_track t.values t.compensate_scale
    rw [hc] at hw hr
    rw [hw] at hw'
    cases hw'
    obtain ⟨out, cs', hr', hclose⟩ := hr' []
    rw [List.append_nil, hr] at hr'
    cases hr'
    exact hclose
  · rw [h.exact hc]
    exact .of_eq _

theorem track_after {t t' : TrackData} (h : Kept ops t t') (ho : OpenedTrack t) : TrackAfter t t' := by
  have hn : t'.name = t.name := h.name.trans ho.name
  have hc : t'.compensate_scale = t.compensate_scale := h.compensate.trans ho.compensate
  refine ⟨hn, h.flags, hc, h.type, kept_len h, kept_close h, kept_rotations h, fun he => ?_⟩
  have hv := kept_exact h he
  have hf := h.flags
  cases t; cases t'
  simp only at hn hc hv hf
  rw [hn, hc, hv, hf]

theorem forall₂_after {R : α → β → Prop} {f : α → β} : ∀ {l : List α}, (∀ x ∈ l, R x (f x)) → List.Forall₂ R l (l.map f)
  | [], _ => .nil
  | x :: _, h => .cons (h x (.head _)) (forall₂_after fun y hy => h y (.tail _ hy))

/-! ## C88 -/

/-- An opened animation can be saved exactly if its last frame index reaches the last frame of the longest track, apart
from files that are too large. -/
theorem C88_outcome (bytes : Bytes) (d : AnimData) (h : AnimData.read ops bytes = some (.ok d)) (longest : Nat)
    (hn : Longest d.groups longest) (hlt : longest ≤ 2 ^ 24) :
    (¬ Reaches d.final_frame_index longest → d.write ops = .error .convert) ∧
    (Reaches d.final_frame_index longest →
      (∃ out, d.write ops = .ok out) ∨ d.write ops = .error (.write .overflow)) := by
  obtain ⟨-, h2, h3⟩ := C29_outcome d longest hn hlt
  have hv := (opened h).1
  constructor
  · intro hr
    unfold AnimData.write
    rw [h2 hv hr]
  · intro hr
    obtain ⟨a, ha⟩ := h3 hv hr
    unfold AnimData.write
    rw [ha]
    cases hc : writeAs a with
    | ok b => exact .inl ⟨b, by simp only [hc]; rfl⟩
    | error e =>
      right
      have : e = .overflow := C01_write_total (.Anim a) e hc
      simp only [hc, this]
      rfl

/-- The saved file opens, with the same groups, nodes and tracks, and values that are close or exactly the same. -/
theorem C88_saved (bytes : Bytes) (d : AnimData) (h : AnimData.read ops bytes = some (.ok d)) (out : Bytes)
    (hw : d.write ops = .ok out) (hl : out.length < 2 ^ 32) :
    ∃ d', AnimData.read ops out = some (.ok d') ∧ AnimAfter d d' := by
  obtain ⟨f, hf, hr⟩ := C45_anim_file ops d out hw (opened_frames h) hl
  refine ⟨_, hr, rfl, rfl, rfl, forall₂_after fun g hg => ⟨rfl, forall₂_after fun n hn => ?_⟩⟩
  have ho := (opened h).2 g hg n hn
  exact ⟨ho.1, forall₂_after fun t ht => track_after (hf t) (ho.2 t ht)⟩

theorem forall₂_eq_of {R : α → α → Prop} {l l' : List α} (h : List.Forall₂ R l l') (he : ∀ x ∈ l, ∀ y, R x y → y = x) :
    l' = l := by
  induction h with
  | nil => rfl
  | cons hx _ ih =>
    rw [he _ (.head _) _ hx, ih fun x hm => he x (.tail _ hm)]

/-- Nothing is lost if every track keeps its values. -/
theorem C88_exact (bytes : Bytes) (d : AnimData) (h : AnimData.read ops bytes = some (.ok d)) (out : Bytes)
    (hw : d.write ops = .ok out) (hl : out.length < 2 ^ 32)
    (he : ∀ g ∈ d.groups, ∀ n ∈ g.nodes, ∀ t ∈ n.tracks, ExactValues t.values) :
    AnimData.read ops out = some (.ok d) := by
  obtain ⟨d', hr, ha⟩ := C88_saved bytes d h out hw hl
  rw [hr]
  obtain ⟨h1, h2, h3, h4⟩ := ha
  have : d'.groups = d.groups := forall₂_eq_of h4 fun g hg g' ⟨e1, e2⟩ => by
    have : g'.nodes = g.nodes := forall₂_eq_of e2 fun n hn n' ⟨e3, e4⟩ => by
      have : n'.tracks = n.tracks := forall₂_eq_of e4 fun t ht t' e => e.exact (he g hg n hn t ht)
      cases n; cases n'; simp_all
    cases g; cases g'; simp_all
  cases d; cases d'
  simp only at h1 h2 h3 this
  rw [h1, h2, h3, this]

/-- Without infinities, NaN or ranges that are too large, the saved file can be opened and saved any number of times, and
the files do not grow. -/
theorem C88_again (bytes : Bytes) (d : AnimData) (h : AnimData.read ops bytes = some (.ok d)) (out : Bytes)
    (hw : d.write ops = .ok out) (hl : out.length < 2 ^ 32) (ht : ∀ t ∈ dataTracks d.groups, Tame t.values) (n : Nat) :
    ∃ files, Saves d files ∧ files.length = n + 1 ∧ files.head? = some out ∧
      files.Pairwise fun before after => after.length ≤ before.length :=
  C86_shrinks d out hw hl (opened_frames h) ht n

/-! ## Cases -/

/-- Two frames, but the last frame has index 0. -/
def shortAnim : Anim := .V21 {
  final_frame_index := 0, unk1 := 1, unk2 := 3, name := none
  groups := [⟨.Material, [⟨some ⟨[0x61], by decide⟩, [⟨some ⟨[0x62], by decide⟩, ⟨.Float, .Direct⟩, 2, 0, 0, 8⟩]⟩]⟩]
  buffer := [0, 0, 0x80, 0x3f, 0, 0, 0, 0x40], unk_data := ⟨[], []⟩ }

def shortData : AnimData := ⟨2, 1, 0, [⟨.Material, [⟨"a", [⟨"b", false, ⟨false, false, false, false⟩,
  .float [0x3f800000, 0x40000000]⟩]⟩]⟩]⟩

theorem opens {a : Anim} {d : AnimData} (hw : isOk (liftWrite (writeAs a)) = true) (ho : ofAnim ops a = some (.ok d)) :
    ∃ bytes, writeAs a = .ok bytes ∧ readAs Anim bytes = .ok a ∧ AnimData.read ops bytes = some (.ok d) := by
  obtain ⟨bytes, h⟩ := isOk_iff.mp hw
  have hr := C01_format_round_trip a bytes (liftWrite_ok.mp h)
  refine ⟨bytes, liftWrite_ok.mp h, hr, (C58_layout ops bytes a hr (fun x e => ?_) d).mpr ((ofAnim_iff ..).mp ho)⟩
  subst e
  cases ho

/-- A file can be opened, read and written as `Anim`, but what `AnimData` gives for it cannot be saved. -/
theorem C88_not_saved : ∃ bytes d, readAs Anim bytes = .ok shortAnim ∧ writeAs shortAnim = .ok bytes ∧
    AnimData.read ops bytes = some (.ok d) ∧ d.write ops = .error .convert := by
  obtain ⟨bytes, h1, h2, h3⟩ := opens (a := shortAnim) (d := shortData) (by decide +kernel) (by decide +kernel)
  exact ⟨bytes, shortData, h2, h1, h3, by decide +kernel⟩

/-- The conditions of all theorems, for the packed file of C58 which the library would not write. -/
example : ∃ bytes out, AnimData.read ops bytes = some (.ok packedData) ∧ Longest packedData.groups 2 ∧
    Reaches packedData.final_frame_index 2 ∧ packedData.write ops = .ok out ∧ out.length < 2 ^ 32 ∧
    (∀ g ∈ packedData.groups, ∀ n ∈ g.nodes, ∀ t ∈ n.tracks, ExactValues t.values) ∧
    ∀ t ∈ dataTracks packedData.groups, Tame t.values := by
  obtain ⟨bytes, -, -, h⟩ := opens (a := packedAnim) (d := packedData) (by decide +kernel) (by decide +kernel)
  have hw : (match packedData.write ops with | .ok b => decide (b.length < 2 ^ 32) | .error _ => false) = true := by
    decide +kernel
  cases ho : packedData.write ops with
  | error e => rw [ho] at hw; cases hw
  | ok out =>
    rw [ho] at hw
    refine ⟨bytes, out, h, ⟨by decide +kernel, .inr ⟨_, List.mem_cons_self, rfl⟩⟩, ?_, rfl, of_decide_eq_true hw, ?_, ?_⟩
    · unfold Reaches
      decide +kernel
    · simp [packedData, ExactValues]
    · unfold Tame
      decide +kernel

end Verif.Props
