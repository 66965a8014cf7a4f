import Verif.Data.AnimDataLaws
import Verif.Props.AnimTracks
/-!
# C27, C28, C29: animations as a whole
-/

namespace Verif.Props
open Verif Verif.AnimData

/-! ## Views of both representations -/

/-- All tracks of the data to be converted, in order. -/
def dataTracks (groups : List GroupData) : List TrackData := groups.flatMap fun g => g.nodes.flatMap (·.tracks)

/-- All tracks of the file, in order. -/
def fileTracks (groups : List Anim.Group) : List Anim.TrackV2 := groups.flatMap fun g => g.nodes.flatMap (·.tracks)

/-- Groups and buffer of the versions that can be created. -/
def parts : Anim → Option (List Anim.Group × Bytes)
  | .V12 _ => none
  | .V20 a => some (a.groups, a.buffer)
  | .V21 a => some (a.groups, a.buffer)

theorem scanMap_flatMap {g : Nat → α → β} {e : α → Bytes} {h : β → List δ} {g' : Nat → γ → δ} {e' : γ → Bytes}
    {k : α → List γ} (he : ∀ x, e x = (k x).flatMap e') (hg : ∀ n x, h (g n x) = scanMap g' e' n (k x)) :
    ∀ (n : Nat) (xs : List α), (scanMap g e n xs).flatMap h = scanMap g' e' n (xs.flatMap k)
  | _, [] => rfl
  | n, x :: xs => by
    have app : ∀ (n : Nat) (us vs : List γ), scanMap g' e' n (us ++ vs) =
        scanMap g' e' n us ++ scanMap g' e' (n + (us.flatMap e').length) vs := by
      intro n us vs
      induction us generalizing n with
      | nil => simp [scanMap]
      | cons u us ih => simp [scanMap, ih, Nat.add_assoc]
    rw [List.flatMap_cons, app, ← he]
    simp only [scanMap, List.flatMap_cons, hg, scanMap_flatMap he hg]

theorem fileTracks_groupsOf (F : FloatOps) (groups : List GroupData) :
    fileTracks (groupsOf F groups) = scanMap (trackAt F) (trackBytes F) 0 (dataTracks groups) :=
  scanMap_flatMap (g := groupAt F) (e := groupBytes F) 
    (h := fun g : Anim.Group => g.nodes.flatMap Anim.Node.tracks) (g' := trackAt F)
    (e' := trackBytes F) (k := fun g : GroupData => g.nodes.flatMap NodeData.tracks)
    (fun x => by
      simp only [groupBytes, List.flatMap_assoc]
      rfl)
    (fun n x => scanMap_flatMap (g := nodeAt F) (e := nodeBytes F) (h := Anim.Node.tracks) (g' := trackAt F)
      (e' := trackBytes F) (k := NodeData.tracks) (fun _ => rfl) (fun _ _ => rfl) n x.nodes) 0 groups

theorem bufferOf (F : FloatOps) (groups : List GroupData) :
    groups.flatMap (groupBytes F) = (dataTracks groups).flatMap (trackBytes F) := by
  simp only [dataTracks, List.flatMap_assoc]
  rfl

theorem create_parts {F : FloatOps} {data : AnimData} {anim : Anim} (h : create F data = .ok anim) :
    parts anim = some (groupsOf F data.groups, data.groups.flatMap (groupBytes F)) := by
  rw [create_eq] at h
  split at h
  · split at h
    · split at h
      · cases h; rfl
      · cases h; rfl
    · cases h
  · cases h

/-! ## C27 -/

/-- Consecutive ranges (start, size) which begin at `a` and end at `b`. -/
def Tiles : Nat → List (Nat × Nat) → Nat → Prop
  | a, [], b => a = b
  | a, (start, size) :: rest, b => start = a ∧ Tiles (a + size) rest b

def ranges (groups : List Anim.Group) : List (Nat × Nat) :=
  (fileTracks groups).map fun t => (t.data_offset.toNat, t.data_size.toNat)

theorem tiles_scan (F : FloatOps) : ∀ (ts : List TrackData) (n : Nat),
    n + (ts.flatMap (trackBytes F)).length < 2 ^ 32 →
    Tiles n ((scanMap (trackAt F) (trackBytes F) n ts).map fun t => (t.data_offset.toNat, t.data_size.toNat))
      (n + (ts.flatMap (trackBytes F)).length)
  | [], n, _ => by simp [scanMap, Tiles]
  | t :: ts, n, h => by
    simp only [List.flatMap_cons, List.length_append] at h ⊢
    have e2 : (UInt64.ofNat (trackBytes F t).length).toNat = (trackBytes F t).length := by
      rw [UInt64.toNat_ofNat', Nat.mod_eq_of_lt (by omega)]
    have ih := tiles_scan F ts (n + (trackBytes F t).length) (by omega)
    simp only [scanMap, List.map_cons, Tiles]
    refine ⟨?_, ?_⟩
    · show (UInt32.ofNat n).toNat = n
      rw [UInt32.toNat_ofNat', Nat.mod_eq_of_lt (by omega)]
    · show Tiles (n + (UInt64.ofNat (trackBytes F t).length).toNat) _ _
      rw [e2, ← Nat.add_assoc]
      exact ih

/-- The ranges of the tracks lie one after the other and cover the buffer. A buffer of 4 GiB or more does not fit
the 32 bits of an offset, see `C27_offsets_wrap`. -/
theorem C27_ranges_partial (F : FloatOps) (data : AnimData) (anim : Anim) (groups : List Anim.Group) (buffer : Bytes)
    (h : create F data = .ok anim) (hp : parts anim = some (groups, buffer)) (hb : buffer.length < 2 ^ 32) :
    Tiles 0 (ranges groups) buffer.length := by
  rw [create_parts h] at hp
  simp only [Option.some.injEq, Prod.mk.injEq] at hp
  obtain ⟨rfl, rfl⟩ := hp
  rw [bufferOf] at hb ⊢
  have := tiles_scan F (dataTracks data.groups) 0 (by omega)
  rw [Nat.zero_add] at this
  rw [ranges, fileTracks_groupsOf]
  exact this

theorem Tiles.le {rs : List (Nat × Nat)} : ∀ {a b : Nat}, Tiles a rs b → a ≤ b ∧ ∀ r ∈ rs, a ≤ r.1 ∧ r.1 + r.2 ≤ b := by
  induction rs with
  | nil => intro a b h; simp only [Tiles] at h; simp [h]
  | cons r rs ih =>
    intro a b h
    obtain ⟨h1, h2⟩ := h
    obtain ⟨h3, h4⟩ := ih h2
    refine ⟨by omega, fun x hx => ?_⟩
    rcases List.mem_cons.mp hx with rfl | hx
    · omega
    · have := h4 x hx
      omega

/-- So they are disjoint and within the buffer. -/
theorem C27_disjoint_partial (F : FloatOps) (data : AnimData) (anim : Anim) (groups : List Anim.Group) (buffer : Bytes)
    (h : create F data = .ok anim) (hp : parts anim = some (groups, buffer)) (hb : buffer.length < 2 ^ 32) :
    (ranges groups).Pairwise (fun r s => r.1 + r.2 ≤ s.1) ∧ ∀ r ∈ ranges groups, r.1 + r.2 ≤ buffer.length := by
  have ht := C27_ranges_partial F data anim groups buffer h hp hb
  refine ⟨?_, fun r hr => (ht.le.2 r hr).2⟩
  generalize ranges groups = rs at ht
  generalize 0 = a at ht
  induction rs generalizing a with
  | nil => exact .nil
  | cons r rs ih =>
    obtain ⟨h1, h2⟩ := ht
    refine .cons (fun s hs => ?_) (ih _ h2)
    have := (h2.le.2 s hs).1
    omega

/-- Without the bound on the buffer: the sizes add up to the buffer and each offset is the sum of the sizes before
it modulo 2^32. -/
theorem C27_ranges_modulo (F : FloatOps) (data : AnimData) (anim : Anim) (groups : List Anim.Group) (buffer : Bytes)
    (h : create F data = .ok anim) (hp : parts anim = some (groups, buffer)) (hb : buffer.length < 2 ^ 64) :
    buffer.length = ((ranges groups).map (·.2)).sum ∧
    ∀ pre r post, ranges groups = pre ++ r :: post → r.1 = (pre.map (·.2)).sum % 2 ^ 32 := by
  rw [create_parts h] at hp
  simp only [Option.some.injEq, Prod.mk.injEq] at hp
  obtain ⟨rfl, rfl⟩ := hp
  rw [bufferOf] at hb ⊢
  rw [ranges, fileTracks_groupsOf]
  generalize dataTracks data.groups = ts at hb
  suffices H : ∀ (ts : List TrackData) (n : Nat), (ts.flatMap (trackBytes F)).length < 2 ^ 64 →
      let rs := (scanMap (trackAt F) (trackBytes F) n ts).map fun t => (t.data_offset.toNat, t.data_size.toNat)
      (ts.flatMap (trackBytes F)).length = (rs.map (·.2)).sum ∧
      ∀ pre r post, rs = pre ++ r :: post → r.1 = (n + (pre.map (·.2)).sum) % 2 ^ 32 by
    have := H ts 0 hb
    simpa using this
  intro ts
  induction ts with
  | nil => intro n _; simp [scanMap]
  | cons t ts ih =>
    intro n hb
    simp only [List.flatMap_cons, List.length_append] at hb
    obtain ⟨i1, i2⟩ := ih (n + (trackBytes F t).length) (by omega)
    have e2 : (UInt64.ofNat (trackBytes F t).length).toNat = (trackBytes F t).length := by
      rw [UInt64.toNat_ofNat', Nat.mod_eq_of_lt (by omega)]
    have e3 : (trackAt F n t).data_size.toNat = (trackBytes F t).length := e2
    simp only [scanMap, List.map_cons, List.flatMap_cons, List.length_append, List.sum_cons, e3]
    refine ⟨by rw [← i1], fun pre r post hs => ?_⟩
    cases pre with
    | nil =>
      simp only [List.nil_append, List.cons.injEq] at hs
      rw [← hs.1]
      show (UInt32.ofNat n).toNat = _
      simp [UInt32.toNat_ofNat']
    | cons p pre =>
      simp only [List.cons_append, List.cons.injEq] at hs
      rw [i2 pre r post hs.2, ← hs.1]
      simp only [List.map_cons, List.sum_cons, Nat.add_assoc]

/-- Some track whose range does not lie in the buffer. -/
def BadRange (buffer : Bytes) (t : Anim.TrackV2) : Prop := buffer.length < t.data_offset.toNat + t.data_size.toNat

theorem mapExcept_error {f : α → Except ε β} : ∀ {xs : List α}, (∃ x ∈ xs, ∃ e, f x = .error e) →
    ∃ e, mapExcept f xs = .error e
  | [], h => by simp at h
  | x :: xs, ⟨y, hy, e, he⟩ => by
    rcases List.mem_cons.mp hy with rfl | hy
    · exact ⟨e, by simp [mapExcept, he]⟩
    · obtain ⟨e', h'⟩ := mapExcept_error ⟨y, hy, e, he⟩
      simp only [mapExcept, h']
      cases f x with
      | error a => exact ⟨a, rfl⟩
      | ok a => exact ⟨e', rfl⟩

/-- The first failing element gives the error. -/
theorem mapExcept_append_error {f : α → Except ε β} {pre post : List α} {x : α} {e : ε} (hp : ∀ y ∈ pre, ∃ z, f y = .ok z)
    (hx : f x = .error e) : mapExcept f (pre ++ x :: post) = .error e := by
  induction pre with
  | nil => simp [mapExcept, hx]
  | cons y pre ih =>
    obtain ⟨z, hz⟩ := hp y List.mem_cons_self
    simp only [List.cons_append, mapExcept, hz, ih (fun u hu => hp u (List.mem_cons_of_mem _ hu))]

theorem readTrack_bad (F : FloatOps) {buffer : Bytes} {t : Anim.TrackV2} (h : BadRange buffer t) :
    readTrack F buffer t = .error (.invalidTrackDataRange t.data_offset.toNat t.data_size.toNat buffer.length) := by
  unfold readTrack
  rw [if_neg (by unfold BadRange at h; omega)]

/-- A file with any such track is not accepted. -/
theorem C27_bad_range_rejected (F : FloatOps) (anim : Anim) (groups : List Anim.Group) (buffer : Bytes)
    (hp : parts anim = some (groups, buffer)) (t : Anim.TrackV2) (ht : t ∈ fileTracks groups) (hb : BadRange buffer t) :
    ∃ e, ofAnim F anim = some (.error e) := by
  have : ∃ e, readGroupsV20 F groups buffer = .error e := by
    obtain ⟨g, hg, ht⟩ := List.mem_flatMap.mp ht
    obtain ⟨n, hn, ht⟩ := List.mem_flatMap.mp ht
    obtain ⟨e1, h1⟩ := mapExcept_error (f := readTrack F buffer) ⟨t, ht, _, readTrack_bad F hb⟩
    obtain ⟨e2, h2⟩ := mapExcept_error (f := readNode F buffer) (xs := g.nodes)
      ⟨n, hn, e1, by simp only [readNode, h1]⟩
    exact mapExcept_error ⟨g, hg, e2, by simp only [readGroup, h2]⟩
  obtain ⟨e, he⟩ := this
  cases anim with
  | V12 a => simp [parts] at hp
  | V20 a => cases hp; exact ⟨e, by simp only [ofAnim, he]; rfl⟩
  | V21 a => cases hp; exact ⟨e, by simp only [ofAnim, he]; rfl⟩

/-- The first failing part of the first failing element gives the error. -/
theorem mapExcept_flat_error {f : α → Except ε β} {g : α → List γ} {k : γ → Except ε δ} {e : ε}
    (hok : ∀ x, (∀ y ∈ g x, ∃ z, k y = .ok z) → ∃ z, f x = .ok z)
    (herr : ∀ x pre y post, g x = pre ++ y :: post → (∀ u ∈ pre, ∃ z, k u = .ok z) → k y = .error e → f x = .error e) :
    ∀ {l : List α} {pre y post}, l.flatMap g = pre ++ y :: post → (∀ u ∈ pre, ∃ z, k u = .ok z) → k y = .error e →
      mapExcept f l = .error e
  | [], pre, y, post, h, _, _ => by simp at h
  | x :: l, pre, y, post, h, hp, hy => by
    rw [List.flatMap_cons] at h
    rcases List.append_eq_append_iff.mp h with ⟨r, rfl, h2⟩ | ⟨r, h1, h2⟩
    · obtain ⟨z, hz⟩ := hok x fun u hu => hp u (List.mem_append_left _ hu)
      simp only [mapExcept, hz, mapExcept_flat_error hok herr h2 (fun u hu => hp u (List.mem_append_right _ hu)) hy]
    · rcases r with _ | ⟨y', r⟩
      · simp only [List.nil_append, List.append_nil] at h1 h2
        obtain ⟨z, hz⟩ := hok x fun u hu => hp u (h1 ▸ hu)
        simp only [mapExcept, hz, mapExcept_flat_error hok herr (pre := []) h2.symm (fun u hu => absurd hu List.not_mem_nil) hy]
      · rw [List.cons_append, List.cons.injEq] at h2
        obtain ⟨rfl, -⟩ := h2
        simp only [mapExcept, herr x pre y r h1 hp hy]

/-- If the tracks before it can be read then the error names the range. -/
theorem C27_bad_range_error (F : FloatOps) (anim : Anim) (groups : List Anim.Group) (buffer : Bytes)
    (hp : parts anim = some (groups, buffer)) (pre : List Anim.TrackV2) (t : Anim.TrackV2) (post : List Anim.TrackV2)
    (ht : fileTracks groups = pre ++ t :: post) (hpre : ∀ u ∈ pre, ∃ d, readTrack F buffer u = .ok d)
    (hb : BadRange buffer t) :
    ofAnim F anim = some (.error (.invalidTrackDataRange t.data_offset.toNat t.data_size.toNat buffer.length)) := by
  have all : ∀ {α β : Type} {f : α → Except AnimErr β} {l : List α}, (∀ y ∈ l, ∃ z, f y = .ok z) →
      ∃ z, mapExcept f l = .ok z := by
    intro α β f l h
    induction l with
    | nil => exact ⟨[], rfl⟩
    | cons y l ih =>
      obtain ⟨z, hz⟩ := h y List.mem_cons_self
      obtain ⟨zs, hzs⟩ := ih fun u hu => h u (List.mem_cons_of_mem _ hu)
      exact ⟨z :: zs, by simp only [mapExcept, hz, hzs]⟩
  have nodeOk : ∀ n : Anim.Node, (∀ u ∈ n.tracks, ∃ d, readTrack F buffer u = .ok d) → ∃ z, readNode F buffer n = .ok z := by
    intro n h
    obtain ⟨z, hz⟩ := all h
    exact ⟨_, by simp only [readNode, hz]; rfl⟩
  have nodeErr : ∀ (n : Anim.Node) pre y post, n.tracks = pre ++ y :: post → (∀ u ∈ pre, ∃ z, readTrack F buffer u = .ok z) →
      ∀ e, readTrack F buffer y = .error e → readNode F buffer n = .error e := by
    intro n pre y post h1 h2 e h3
    simp only [readNode, h1, mapExcept_append_error h2 h3]
  have : readGroupsV20 F groups buffer =
      .error (.invalidTrackDataRange t.data_offset.toNat t.data_size.toNat buffer.length) := by
    unfold fileTracks at ht
    refine mapExcept_flat_error (f := readGroup F buffer) (k := readTrack F buffer) ?_ ?_ ht hpre (readTrack_bad F hb)
    · intro g h
      obtain ⟨z, hz⟩ := all (f := readNode F buffer) (l := g.nodes) fun n hn =>
        nodeOk n fun u hu => h u (List.mem_flatMap.mpr ⟨n, hn, hu⟩)
      exact ⟨_, by simp only [readGroup, hz]; rfl⟩
    · intro g pre y post h1 h2 h3
      simp only [readGroup, mapExcept_flat_error (f := readNode F buffer) nodeOk
        (fun n pre y post a b c => nodeErr n pre y post a b _ c) h1 h2 h3]
  cases anim with
  | V12 a => simp [parts] at hp
  | V20 a =>
    simp only [parts, Option.some.injEq, Prod.mk.injEq] at hp
    simp only [ofAnim, hp.1, hp.2, this]; rfl
  | V21 a =>
    simp only [parts, Option.some.injEq, Prod.mk.injEq] at hp
    simp only [ofAnim, hp.1, hp.2, this]; rfl

example : BadRange [1, 2, 3] ⟨none, ⟨.Float, .Direct⟩, 1, 0, 1, 4⟩ ∧
    BadRange [1, 2, 3] ⟨none, ⟨.Float, .Direct⟩, 1, 0, 4, 0xFFFFFFFFFFFFFFFF⟩ := by
  unfold BadRange; decide

/-- A small animation with two tracks. -/
def smallAnim : AnimData := ⟨2, 1, 1, [⟨.Material, [⟨"n",
  [⟨"a", false, ⟨true, false, false, true⟩, .float [3, 4]⟩, ⟨"b", false, ⟨false, false, false, false⟩, .boolean [true]⟩]⟩]⟩]⟩

example : ∃ anim groups buffer, create simpleOps smallAnim = .ok anim ∧ parts anim = some (groups, buffer) ∧
    buffer.length < 2 ^ 32 ∧ ranges groups = [(0, 8), (8, 1)] := by
  refine ⟨_, _, _, rfl, rfl, ?_, ?_⟩ <;> decide +kernel

/-! ## C28 -/

/-- What is kept of a track. Values and scale compensation are those that reading the encoded track gives, which are
the original ones for the encodings without compression. The name is kept up to the first null character. -/
structure Kept (F : FloatOps) (t t' : TrackData) : Prop where
  name : t'.name = cutNul t.name
  flags : t'.transform_flags = t.transform_flags
  type : t'.values.trackType = t.values.trackType
  decoded : ∃ b, t.values.write F (inferOptimalCompressionType t.values) t.compensate_scale = .ok b ∧
    readTrackValues F b ⟨t.values.trackType, inferOptimalCompressionType t.values⟩ t.values.len =
      .ok (t'.values, t'.compensate_scale)
  exact : inferOptimalCompressionType t.values ≠ .Compressed → t'.values = t.values
  compensate : t'.compensate_scale = match t.values with
    | .transform (_ :: _) => t.compensate_scale
    | _ => false

/-- Same structure: group types, node order, track order; names up to the first null character. -/
def mapTracks (f : TrackData → TrackData) (groups : List GroupData) : List GroupData :=
  groups.map fun g => ⟨g.group_type, g.nodes.map fun n => ⟨cutNul n.name, n.tracks.map f⟩⟩

theorem C28_structure_preserved (F : FloatOps) (data : AnimData) (anim : Anim) (h : create F data = .ok anim)
    (hl : ∀ t ∈ dataTracks data.groups, t.values.len < 2 ^ 32)
    (hb : ∀ groups buffer, parts anim = some (groups, buffer) → buffer.length < 2 ^ 32) :
    ∃ f, (∀ t, Kept F t (f t)) ∧
      ofAnim F anim = some (.ok { data with groups := mapTracks f data.groups }) := by
  refine ⟨readBack F, fun t => ?_, ?_⟩
  · by_cases hc : inferOptimalCompressionType t.values = .Compressed
    · obtain ⟨b, hw, _, hr⟩ := t.values.compressed F t.compensate_scale
      refine ⟨rfl, rfl, ?_, ⟨b, by rw [hc]; exact hw, ?_⟩, fun h => absurd hc h, rfl⟩
      · simp only [readBack, hc, if_true]
        cases t.values <;> rfl
      · have := hr []
        rw [List.append_nil] at this
        rw [hc, this]
        simp only [readBack, hc, if_true, ← quantized_compensate F]
    · obtain ⟨b, hw, _, hr⟩ := t.values.uncompressed F _ hc t.compensate_scale
      refine ⟨rfl, rfl, ?_, ⟨b, hw, ?_⟩, fun _ => by simp only [readBack, hc, if_false], rfl⟩
      · simp only [readBack, hc, if_false]
      · have := hr []
        rw [List.append_nil] at this
        rw [this]
        simp only [readBack, hc, if_false]
  · have hp := create_parts h
    have hb := hb _ _ hp
    have hr := readGroups_eq F data.groups hb (fun g hg n hn t ht =>
      hl t (List.mem_flatMap.mpr ⟨g, hg, List.mem_flatMap.mpr ⟨n, hn, ht⟩⟩))
    have hm : data.groups.map (readBackGroup F) = mapTracks (readBack F) data.groups := rfl
    rw [hm] at hr
    obtain ⟨ma, mi, ffi, groups⟩ := data
    rw [create_eq] at h
    split at h
    · rename_i hv
      obtain ⟨hv1, hv2⟩ := hv
      split at h
      · split at h
        · rename_i h0
          cases h
          simp only at hv1 h0 hr
          subst hv1 h0
          simp only [ofAnim, hr]
          rfl
        · rename_i h0
          cases h
          simp only at hv1 h0 hr hv2
          have h1 := hv2.resolve_left h0
          subst hv1 h1
          simp only [ofAnim, hr]
          rfl
      · cases h
    · cases h

/-- Names without null characters are kept. -/
theorem C28_names (s : String) (h : '\x00' ∉ s.toList) : cutNul s = s := cutNul_of_not_mem h

example : ∃ anim, create simpleOps smallAnim = .ok anim ∧
    (∀ t ∈ dataTracks smallAnim.groups, t.values.len < 2 ^ 32) ∧
    (∀ groups buffer, parts anim = some (groups, buffer) → buffer.length < 2 ^ 32) := by
  refine ⟨_, rfl, by decide +kernel, ?_⟩
  intro groups buffer h
  cases h
  decide +kernel

/-! ## C29 -/

/-- `n` is the length of the longest track, 0 if there are no tracks. -/
def Longest (groups : List GroupData) (n : Nat) : Prop :=
  (∀ t ∈ dataTracks groups, t.values.len ≤ n) ∧ (n = 0 ∨ ∃ t ∈ dataTracks groups, t.values.len = n)

def SupportedVersion (data : AnimData) : Prop :=
  data.major_version = 2 ∧ (data.minor_version = 0 ∨ data.minor_version = 1)

def maxLe (o : Option Nat) (x : Nat) : Prop := ∀ a, o = some a → a ≤ x

theorem maxLe_max? (l : List Nat) (x : Nat) : maxLe l.max? x ↔ ∀ a ∈ l, a ≤ x := by
  unfold maxLe
  cases h : l.max? with
  | none => rw [List.max?_eq_none_iff] at h; subst h; simp
  | some m =>
    rw [← List.max?_le_iff h]
    simp

theorem maxFrameCount_le (groups : List Anim.Group) (x : Nat) :
    maxFrameCount groups ≤ x ↔ ∀ t ∈ fileTracks groups, t.frame_count.toNat ≤ x := by
  have e : ∀ o : Option Nat, o.getD 0 ≤ x ↔ maxLe o x := by
    intro o; cases o <;> simp [maxLe]
  unfold maxFrameCount
  simp only [e, maxLe_max?, List.mem_filterMap]
  have e2 : ∀ (n : Anim.Node), maxLe (n.tracks.map (·.frame_count.toNat)).max? x ↔
      ∀ t ∈ n.tracks, t.frame_count.toNat ≤ x := by
    intro n; rw [maxLe_max?]; simp
  have e3 : ∀ (g : Anim.Group), maxLe (g.nodes.filterMap fun n => (n.tracks.map (·.frame_count.toNat)).max?).max? x ↔
      ∀ n ∈ g.nodes, ∀ t ∈ n.tracks, t.frame_count.toNat ≤ x := by
    intro g
    rw [maxLe_max?]
    simp only [List.mem_filterMap]
    constructor
    · intro h n hn
      exact (e2 n).mp fun a ha => h a ⟨n, hn, ha⟩
    · rintro h a ⟨n, hn, ha⟩
      exact (e2 n).mpr (h n hn) a ha
  constructor
  · intro h t ht
    obtain ⟨g, hg, ht⟩ := List.mem_flatMap.mp ht
    obtain ⟨n, hn, ht⟩ := List.mem_flatMap.mp ht
    exact (e3 g).mp (fun a ha => h a ⟨g, hg, ha⟩) n hn t ht
  · rintro h a ⟨g, hg, ha⟩
    exact (e3 g).mpr (fun n hn t ht => h t (List.mem_flatMap.mpr ⟨g, hg, List.mem_flatMap.mpr ⟨n, hn, ht⟩⟩)) a ha

theorem maxFrameCount_groupsOf (F : FloatOps) {groups : List GroupData} {n : Nat} (h : Longest groups n)
    (hn : n < 2 ^ 32) : maxFrameCount (groupsOf F groups) = n := by
  have e : ∀ x, maxFrameCount (groupsOf F groups) ≤ x ↔ ∀ t ∈ dataTracks groups, t.values.len ≤ x := by
    intro x
    rw [maxFrameCount_le, fileTracks_groupsOf]
    have hl := h.1
    generalize dataTracks groups = ts at hl
    generalize 0 = o
    clear h
    induction ts generalizing o with
    | nil => simp [scanMap]
    | cons t ts ih =>
      have ih := ih (fun t ht => hl t (List.mem_cons_of_mem _ ht)) (o + (trackBytes F t).length)
      simp only [scanMap, List.forall_mem_cons]
      refine Iff.trans (and_congr_right fun _ => ih) ?_
      have := hl t List.mem_cons_self
      have : (trackAt F o t).frame_count.toNat = t.values.len := by
        show (UInt32.ofNat t.values.len).toNat = _
        rw [UInt32.toNat_ofNat', Nat.mod_eq_of_lt (by omega)]
      rw [this]
  apply Nat.le_antisymm
  · exact (e n).mpr h.1
  · rcases h.2 with h0 | ⟨t, ht, h0⟩
    · omega
    · rw [← h0]
      exact (e _).mp (Nat.le_refl _) t ht

/-! ### Counterexample for C27 -/

/-- A pattern track with the given values, followed by a second track. -/
def twoTracks (ffi : F32) (vs : List UInt32) : AnimData := ⟨2, 0, ffi, [⟨.Material, [⟨"n",
  [⟨"a", false, ⟨false, false, false, false⟩, .patternIndex vs⟩,
   ⟨"b", false, ⟨false, false, false, false⟩, .patternIndex [1]⟩]⟩]⟩]⟩

/-- Counterexample to the full statement: a first track of 2^32 + 2 bytes. The offset of the second track wraps to 2,
inside of the first one. -/
theorem C27_offsets_wrap (F : FloatOps) (ffi : F32) (vs : List UInt32) (hlen : vs.length = 1431655754)
    (h0 : F.ge ffi 0 = true) (h1 : F.ge ffi (F.lastFrame 1431655754) = true) :
    ∃ anim groups buffer, create F (twoTracks ffi vs) = .ok anim ∧
      parts anim = some (groups, buffer) ∧ ranges groups = [(0, 2 ^ 32 + 2), (2, 4)] := by
  have hc : inferOptimalCompressionType (.patternIndex vs) = .Compressed := by
    unfold inferOptimalCompressionType
    have ho := (TrackValues.patternIndex vs).overhead_eq
    simp only at ho
    rw [if_neg (by simp only [TrackValues.len]; omega), if_pos (by
      simp only [ho, TrackValues.len, TrackValues.dataSize]
      rw [show u32.size 0 = 4 from rfl]
      omega)]
  have e1 : (trackBytes F ⟨"a", false, ⟨false, false, false, false⟩, .patternIndex vs⟩).length = 2 ^ 32 + 2 := by
    obtain ⟨b, hw, hl, _⟩ := TrackValues.compressed F (.patternIndex vs) false
    have := trackBytes_eq F ⟨"a", false, ⟨false, false, false, false⟩, .patternIndex vs⟩
    simp only [hc, hw, Except.ok.injEq] at this
    have ho := (TrackValues.patternIndex vs).overhead_eq
    simp only at ho
    rw [← this, hl, ho, show (TrackValues.patternIndex vs).bits F false = 24 from rfl]
    simp only [TrackValues.len, hlen]
  have e2 : (trackBytes F ⟨"b", false, ⟨false, false, false, false⟩, .patternIndex [1]⟩).length = 4 := by
    obtain ⟨b, hw, hl, _⟩ := TrackValues.uncompressed F (.patternIndex [1]) .Constant (by decide) false
    have := trackBytes_eq F ⟨"b", false, ⟨false, false, false, false⟩, .patternIndex [1]⟩
    rw [show inferOptimalCompressionType (TrackValues.patternIndex [1]) = .Constant from rfl] at this
    simp only [hw, Except.ok.injEq] at this
    rw [← this, hl]
    rfl
  have hd : dataTracks (twoTracks ffi vs).groups =
      [⟨"a", false, ⟨false, false, false, false⟩, .patternIndex vs⟩,
       ⟨"b", false, ⟨false, false, false, false⟩, .patternIndex [1]⟩] := rfl
  have hl : Longest (twoTracks ffi vs).groups 1431655754 := by
    refine ⟨?_, .inr ?_⟩
    · rw [hd]
      simp [TrackValues.len, hlen]
    · rw [hd]
      exact ⟨_, List.mem_cons_self, hlen⟩
  have hmax := maxFrameCount_groupsOf F hl (by omega)
  refine ⟨.V20 ⟨ffi, 1, 3, ssbhText "", groupsOf F (twoTracks ffi vs).groups,
      (twoTracks ffi vs).groups.flatMap (groupBytes F)⟩, groupsOf F (twoTracks ffi vs).groups, _, ?_, rfl, ?_⟩
  · rw [create_eq, hmax, if_pos ⟨rfl, .inl rfl⟩]
    rw [if_pos (by rw [show (twoTracks ffi vs).final_frame_index = ffi from rfl, h0, h1]; rfl)]
    rfl
  · rw [ranges, fileTracks_groupsOf, hd]
    simp only [scanMap, List.map_cons, List.map_nil, trackAt, e1, e2, Nat.zero_add, UInt32.toNat_ofNat',
      UInt64.toNat_ofNat', Nat.reducePow, Nat.reduceAdd, Nat.reduceMod, Nat.zero_mod]

/-- The conditions can be met. -/
example : (List.replicate 1431655754 (7 : UInt32)).length = 1431655754 ∧
    simpleOps.ge 1431655753 0 = true ∧ simpleOps.ge 1431655753 (simpleOps.lastFrame 1431655754) = true :=
  ⟨List.length_replicate, by decide, by decide⟩

/-! ### The theorem -/

/-- The outcome of creating an animation, with `longest` frames in the longest track. `F.lastFrame n` is
`n as f32 - 1.0`, and `F.ge` is `>=` for 32 bit floats; this part is not looked into here. -/
theorem C29_outcome_partial (F : FloatOps) (data : AnimData) (longest : Nat) (hn : Longest data.groups longest)
    (hlt : longest < 2 ^ 32) :
    (¬ SupportedVersion data → create F data =
      .error (.unsupportedVersion data.major_version.toNat data.minor_version.toNat)) ∧
    (SupportedVersion data → (F.ge data.final_frame_index 0 = false ∨
        F.ge data.final_frame_index (F.lastFrame longest) = false) →
      create F data = .error (.invalidFinalFrameIndex data.final_frame_index)) ∧
    (SupportedVersion data → F.ge data.final_frame_index 0 = true →
      F.ge data.final_frame_index (F.lastFrame longest) = true → ∃ anim, create F data = .ok anim) := by
  rw [create_eq, maxFrameCount_groupsOf F hn hlt]
  unfold SupportedVersion
  refine ⟨fun h => if_neg h, fun h h1 => ?_, fun h h1 h2 => ?_⟩
  · rw [if_pos h, if_neg]
    rcases h1 with h1 | h1 <;> simp [h1]
  · rw [if_pos h, if_pos (by simp [h1, h2])]
    split
    · exact ⟨_, rfl⟩
    · exact ⟨_, rfl⟩

example : Longest smallAnim.groups 2 ∧ SupportedVersion smallAnim := by
  refine ⟨⟨by decide +kernel, .inr ?_⟩, by unfold SupportedVersion; decide⟩
  exact ⟨_, List.mem_cons_self, rfl⟩

end Verif.Props
