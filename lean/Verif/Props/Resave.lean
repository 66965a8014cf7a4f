import Verif.Props.Floats
import Verif.Props.Limits
import Verif.Float.ConvLaws
/-!
# C50 and C53: saving what was read

With the float operations of the code.
-/

namespace Verif.Props
open Verif Ieee AnimData MeshData

/-! ## C50 -/

/-- Opening a mesh file that was written by the library and saving it again does not change the data. -/
theorem C50_mesh_files (bounds : List (Vector F32 3) → Mesh.BoundingInfo) (d d' : MeshData) (bytes bytes' : Bytes)
    (h : d.write conv bounds = .ok bytes) (hl : bytes.length < 2 ^ 32)
    (hn : d.objects.Pairwise fun a b => ¬ (cutNul a.name = cutNul b.name ∧ a.subindex = b.subindex))
    (hr : MeshData.read conv bytes = .ok d') (h' : d'.write conv bounds = .ok bytes') (hl' : bytes'.length < 2 ^ 32) :
    MeshData.read conv bytes' = .ok d' :=
  C50_file conv stable bounds d d' bytes bytes' h hl hn hr h' hl'

theorem C50_meshes (bounds : List (Vector F32 3) → Mesh.BoundingInfo) (d d' : MeshData) (m m' : Mesh)
    (h : MeshData.toMesh conv bounds d = .ok m) (hs : Small m) (hf : FewAttributes d)
    (hn : d.objects.Pairwise fun a b => ¬ (cutNul a.name = cutNul b.name ∧ a.subindex = b.subindex))
    (hr : MeshData.ofMesh conv m = .ok d') (h' : MeshData.toMesh conv bounds d' = .ok m') (hs' : Small m') : MeshData.ofMesh conv m' = .ok d' :=
  C50_second_save conv stable bounds d d' m m' h hs hf hn hr h' hs'

example : ∃ bytes, (exampleMesh 10 "b" "a").write conv exampleBounds = .ok bytes := isOk_iff.mp (by decide +kernel)

/-! ## C53 -/

/-- Saves to a file and opens it. -/
def saveAndOpen (d : AnimData) : Option AnimData :=
  match d.write ops with
  | .error _ => none
  | .ok bytes => match AnimData.read ops bytes with
    | some (.ok d') => some d'
    | _ => none

/-- One visibility group with a track of floats: -1, 1, and nine times -0.3. -/
def driftingAnim : AnimData :=
  ⟨2, 0, 0x41200000, [⟨.Visibility, [⟨"a", [⟨"b", false, ⟨false, false, false, false⟩,
    .float (0xbf800000 :: 0x3f800000 :: List.replicate 9 3202503980)⟩]⟩]⟩]⟩

/-- The third frame of the first track. -/
def thirdFrame (d : AnimData) : Option F32 :=
  match dataTracks d.groups with
  | ⟨_, _, _, .float vs⟩ :: _ => vs[2]?
  | _ => none

/-- Counterexample to the full statement: every time the animation is opened and saved the values change. -/
theorem C53_drift : ∃ d0 d1 d2 d3 d4 : AnimData, saveAndOpen d0 = some d1 ∧ saveAndOpen d1 = some d2 ∧
    saveAndOpen d2 = some d3 ∧ saveAndOpen d3 = some d4 ∧
    thirdFrame d1 = some 3202503983 ∧ thirdFrame d2 = some 3202503987 ∧ thirdFrame d3 = some 3202503991 ∧
    thirdFrame d4 = some 3202503995 := by
  have h1 : (saveAndOpen driftingAnim).isSome = true := by decide +kernel
  obtain ⟨d1, e1⟩ := Option.isSome_iff_exists.mp h1
  have h : ((saveAndOpen driftingAnim).bind fun d1 => (saveAndOpen d1).bind fun d2 => (saveAndOpen d2).bind fun d3 =>
      (saveAndOpen d3).map fun d4 => (thirdFrame d1, thirdFrame d2, thirdFrame d3, thirdFrame d4)) =
      some (some 3202503983, some 3202503987, some 3202503991, some 3202503995) := by decide +kernel
  simp only [Option.bind_eq_some_iff, Option.map_eq_some_iff, Prod.mk.injEq] at h
  obtain ⟨d1, e1, d2, e2, d3, e3, d4, e4, t1, t2, t3, t4⟩ := h
  exact ⟨_, d1, d2, d3, d4, e1, e2, e3, e4, t1, t2, t3, t4⟩

/-- Tracks without interpolated values or which are short enough to be stored without compression. -/
def NoQuantization (values : TrackValues) : Prop :=
  match values with
  | .boolean _ | .patternIndex _ => True
  | _ => inferOptimalCompressionType values ≠ .Compressed

theorem pattern_span {F : FloatOps} {t t' : TrackData} (h : Kept F t t') {vs us : List UInt32}
    (hv : t.values = .patternIndex vs) (hu : t'.values = .patternIndex us)
    (hc : inferOptimalCompressionType t.values = .Compressed) : ∀ u ∈ us, ∀ v ∈ us, u.toNat < v.toNat + 2 ^ 24 := by
  obtain ⟨b, hw, hr⟩ := h.decoded
  rw [hc, hv] at hw hr
  obtain ⟨b', hw', _, hr'⟩ := TrackValues.compressed F (.patternIndex vs) t.compensate_scale
  rw [hw] at hw'
  cases hw'
  have := hr' []
  rw [List.append_nil] at this
  have e := hr.symm.trans this
  injection e with e
  rw [hu] at e
  have e2 : us = vs.map (patternQuant vs) := by
    have := congrArg Prod.fst e
    simp only [TrackValues.quantized] at this
    injection this
  have hb : ∀ u ∈ us, (reduceOr min 0 vs).toNat ≤ u.toNat ∧ u.toNat < (reduceOr min 0 vs).toNat + 2 ^ 24 := by
    intro u hu
    rw [e2] at hu
    obtain ⟨v, hv, rfl⟩ := List.mem_map.mp hu
    have h1 := reduceOr_min_le 0 vs v hv
    have h2 := UInt32.le_iff_toNat_le.mp h1
    have h3 : (v - reduceOr min 0 vs).toNat = v.toNat - (reduceOr min 0 vs).toNat := UInt32.toNat_sub_of_le _ _ h1
    have h4 := v.toNat_lt
    have h5 : (v.toNat - (reduceOr min 0 vs).toNat) % 2 ^ 24 ≤ v.toNat - (reduceOr min 0 vs).toNat := Nat.mod_le _ _
    have h6 : (v.toNat - (reduceOr min 0 vs).toNat) % 2 ^ 24 < 2 ^ 24 := Nat.mod_lt _ (by decide)
    unfold patternQuant
    rw [UInt32.toNat_add, UInt32.toNat_ofNat', h3]
    rw [Nat.mod_eq_of_lt (a := _ % 2 ^ 24) (b := 2 ^ 32) (by omega), Nat.mod_eq_of_lt (b := 2 ^ 32) (by omega)]
    omega
  intro u hu v hv
  have := hb u hu
  have := hb v hv
  omega

theorem kept_again {F : FloatOps} {t t' t'' : TrackData} (h : Kept F t t') (h' : Kept F t' t'')
    (hq : NoQuantization t.values) : t'' = t' := by
  have hn : t''.name = t'.name := by rw [h'.name, h.name, cutNul_idem]
  have hf : t''.transform_flags = t'.transform_flags := h'.flags
  suffices hv : t''.values = t'.values by
    have hc : t''.compensate_scale = t'.compensate_scale := by
      rw [h'.compensate]
      have h1 := h.compensate
      cases hv' : t'.values with
      | transform vs =>
        cases vs with
        | nil =>
          cases hv2 : t.values with
          | transform us =>
            rw [hv2] at h1 hq
            have := h.exact (by rw [hv2]; exact hq)
            rw [hv', hv2] at this
            cases this
            exact h1.symm
          | _ => rw [hv2] at h1; exact h1.symm
        | cons => rfl
      | _ =>
        have ht := h.type
        rw [hv'] at ht
        cases hv2 : t.values <;> rw [hv2] at ht h1 <;> first | exact h1.symm | cases ht
    cases t'; cases t''
    simp only [TrackData.mk.injEq]
    exact ⟨hn, hc, hf, hv⟩
  by_cases hc : inferOptimalCompressionType t'.values = .Compressed
  swap
  · exact h'.exact hc
  obtain ⟨b, hw, hr⟩ := h'.decoded
  rw [hc] at hw hr
  cases hv : t.values with
  | boolean vs =>
    have ht := h.type
    rw [hv] at ht
    cases hv' : t'.values with
    | boolean us =>
      rw [hv'] at hw hr
      obtain ⟨b', hw', hr'⟩ := C22_boolean_lossless F us t'.compensate_scale
      rw [hw] at hw'
      cases hw'
      have := hr' []
      rw [List.append_nil] at this
      have e := hr.symm.trans this
      injection e with e
      injection e
    | _ => rw [hv'] at ht; cases ht
  | patternIndex vs =>
    have ht := h.type
    rw [hv] at ht
    cases hv' : t'.values with
    | patternIndex us =>
      rw [hv'] at hw hr
      obtain ⟨b', hw', hr'⟩ := C23_pattern_lossless_partial F us t'.compensate_scale
      rw [hw] at hw'
      cases hw'
      have := (hr' []).mpr (pattern_span h hv hv' ?_)
      · rw [List.append_nil] at this
        have e := hr.symm.trans this
        injection e with e
        injection e
      · by_cases hct : inferOptimalCompressionType t.values = .Compressed
        · exact hct
        · rw [h.exact hct] at hc
          exact absurd hc hct
    | _ => rw [hv'] at ht; cases ht
  | _ =>
    rw [hv] at hq
    have := h.exact (by rw [hv]; exact hq)
    rw [this, hv] at hc
    exact absurd hc hq

theorem kept_len {F : FloatOps} {t t' : TrackData} (h : Kept F t t') : t'.values.len ≤ t.values.len := by
  by_cases hc : inferOptimalCompressionType t.values = .Compressed
  · obtain ⟨b, hw, hr⟩ := h.decoded
    rw [hc] at hw hr
    obtain ⟨b', hw', hr'⟩ := C24_frame_count_partial F t.values t.compensate_scale
    rw [hw] at hw'
    cases hw'
    obtain ⟨out, cs, hr', _, h1, h2⟩ := hr' []
    rw [List.append_nil, hr] at hr'
    cases hr'
    by_cases hk : ConstantTrack F t.values
    · rw [h2 hk]; omega
    · rw [h1 hk]
  · rw [h.exact hc]

theorem mem_dataTracks_mapTracks {f : TrackData → TrackData} {groups : List GroupData} {t : TrackData} :
    t ∈ dataTracks (mapTracks f groups) ↔ ∃ s ∈ dataTracks groups, f s = t := by
  simp only [dataTracks, mapTracks, List.mem_flatMap, List.mem_map]
  constructor
  · rintro ⟨_, ⟨g, hg, rfl⟩, n', hn', ht⟩
    simp only [List.mem_map] at hn'
    obtain ⟨n, hn, rfl⟩ := hn'
    obtain ⟨s, hs, rfl⟩ := List.mem_map.mp ht
    exact ⟨s, ⟨g, hg, n, hn, hs⟩, rfl⟩
  · rintro ⟨s, ⟨g, hg, n, hn, hs⟩, rfl⟩
    exact ⟨_, ⟨g, hg, rfl⟩, ⟨cutNul n.name, n.tracks.map f⟩, List.mem_map.mpr ⟨n, hn, rfl⟩,
      List.mem_map.mpr ⟨s, hs, rfl⟩⟩

theorem mapTracks_mapTracks {f g : TrackData → TrackData} {groups : List GroupData}
    (h : ∀ t ∈ dataTracks groups, g (f t) = f t) : mapTracks g (mapTracks f groups) = mapTracks f groups := by
  simp only [mapTracks, List.map_map]
  apply List.map_congr_left
  intro gr hg
  simp only [Function.comp, GroupData.mk.injEq, true_and, List.map_map]
  apply List.map_congr_left
  intro n hn
  simp only [Function.comp, NodeData.mk.injEq, cutNul_idem, true_and, List.map_map]
  apply List.map_congr_left
  intro t ht
  exact h t (List.mem_flatMap.mpr ⟨gr, hg, List.mem_flatMap.mpr ⟨n, hn, ht⟩⟩)

/-- Files whose tracks have no interpolated values, or are stored without compression. Missing from the full statement:
compressed tracks of floats, vectors and transforms, see the counterexample. -/
theorem C53_second_save_partial (F : FloatOps) (d d' : AnimData) (bytes bytes' : Bytes) (h : d.write F = .ok bytes)
    (hl : ∀ t ∈ dataTracks d.groups, t.values.len < 2 ^ 32) (hb : bytes.length < 2 ^ 32)
    (hq : ∀ t ∈ dataTracks d.groups, NoQuantization t.values)
    (hr : AnimData.read F bytes = some (.ok d')) (h' : d'.write F = .ok bytes') (hb' : bytes'.length < 2 ^ 32) :
    AnimData.read F bytes' = some (.ok d') := by
  obtain ⟨f, hf, ho⟩ := C45_anim_file F d bytes h hl hb
  rw [ho] at hr
  cases hr
  obtain ⟨g, hg, ho'⟩ := C45_anim_file F _ bytes' h' (by
    intro t ht
    obtain ⟨s, hs, rfl⟩ := mem_dataTracks_mapTracks.mp ht
    exact Nat.lt_of_le_of_lt (kept_len (hf s)) (hl s hs)) hb'
  rw [ho']
  simp only
  rw [mapTracks_mapTracks fun t ht => kept_again (hf t) (hg (f t)) (hq t ht)]

/-- A file with a long boolean track, a long track of indices and a short track of floats. -/
def mixedAnim : AnimData :=
  ⟨2, 1, 0x42200000, [⟨.Visibility, [⟨"a", [
    ⟨"b", false, ⟨false, false, false, false⟩, .boolean (List.replicate 40 true)⟩,
    ⟨"c", false, ⟨false, false, false, false⟩, .patternIndex (List.replicate 20 7)⟩,
    ⟨"d", false, ⟨false, false, false, false⟩, .float [0xbf800000, 0x3f800000, 3202503980]⟩]⟩]⟩]⟩

example : (∀ t ∈ dataTracks mixedAnim.groups, NoQuantization t.values) ∧
    ∃ d', saveAndOpen mixedAnim = some d' ∧ (saveAndOpen d').isSome := by
  refine ⟨?_, mixedAnim, by decide +kernel, by decide +kernel⟩
  intro t ht
  simp only [mixedAnim, dataTracks, List.flatMap_cons, List.flatMap_nil, List.append_nil, List.mem_cons,
    List.not_mem_nil, or_false] at ht
  rcases ht with rfl | rfl | rfl
  · trivial
  · trivial
  · show inferOptimalCompressionType _ ≠ _
    decide

end Verif.Props
