import Verif.Image.Sizes
import Verif.Props.Image
import Verif.Props.Drift
import Verif.Props.SameFile
/-!
# C86: saved animations do not grow

With the float operations of the code.
-/

namespace Verif.Props
open Verif Ieee AnimData Image

/-! ## Description -/

/-- All components are finite, and no two frames of a component are farther apart than the largest `f32`. -/
def Tame (values : TrackValues) : Prop :=
  ∀ vs ∈ channels values, ∀ v ∈ vs, Finite v ∧ ∀ v' ∈ vs, value v - value v' ≤ maxFinite

/-! ## Bits per frame -/

/-- The bits for a component. -/
def componentBits (vs : List F32) : Nat := if ops.eq (findMinF32 ops vs) (findMaxF32 ops vs) then 0 else 24

theorem fromRange_bits (a b : F32) : (F32Compression.fromRange ops a b).bitCount ops = if ops.eq a b then 0 else 24 := by
  unfold F32Compression.bitCount F32Compression.fromRange
  by_cases h : ops.eq a b = true <;> simp [h, defaultBitCount]

theorem eq_of_value {a b : F32} (ha : Finite a) (hb : Finite b) (h : value a = value b) : ops.eq a b = true := by
  rw [value_eq, value_eq] at h
  exact (Fl.eq_iff ((finite_iff a).mp ha).not_nan ((finite_iff b).mp hb).not_nan).mpr h

/-- What a close component inherits. -/
theorem close_members {vs us : List F32} (h : Close vs us) (hl : us.length ≤ vs.length)
    (ht : ∀ v ∈ vs, Finite v ∧ ∀ v' ∈ vs, value v - value v' ≤ maxFinite) :
    ∀ u ∈ us, Finite u ∧ (∃ v ∈ vs, value v ≤ value u) ∧ (∃ v ∈ vs, value u ≤ value v) := by
  intro u hu
  obtain ⟨j, hj, rfl⟩ := List.getElem_of_mem hu
  have hj' : j < vs.length := Nat.lt_of_lt_of_le hj hl
  obtain ⟨u, hu', hfin, _, _, h1, h2⟩ := h maxFinite maxFinite (fun v hv => ⟨(ht v hv).1, abs_value_le (ht v hv).1⟩)
    (fun v hv => (ht v hv).2) le_rfl j vs[j] (List.getElem?_eq_getElem hj')
  rw [shown, show min j (us.length - 1) = j by omega, List.getElem?_eq_getElem hj] at hu'
  cases hu'
  exact ⟨hfin, h1, h2⟩

theorem componentBits_le {vs us : List F32} (h : Close vs us) (hl : us.length ≤ vs.length)
    (ht : ∀ v ∈ vs, Finite v ∧ ∀ v' ∈ vs, value v - value v' ≤ maxFinite) : componentBits us ≤ componentBits vs := by
  unfold componentBits
  by_cases hu : ops.eq (findMinF32 ops us) (findMaxF32 ops us) = true
  · rw [if_pos hu]; exact Nat.zero_le _
  · rw [if_neg hu, if_neg]
    intro hv
    apply hu
    have hm := close_members h hl ht
    cases us with
    | nil => decide +kernel
    | cons u us =>
      obtain ⟨hfu, ⟨v, hmv, _⟩, _⟩ := hm u (.head _)
      have hF : ∀ v ∈ vs, (ofBits v).Fin := fun v hv => (finite_iff v).mp (ht v hv).1
      obtain ⟨l1, l2⟩ := findMin_spec hmv hF
      obtain ⟨g1, g2⟩ := findMax_spec hmv hF
      have hvv := (same_of_eq hv).1
      have hall : ∀ w ∈ vs, value w = value (findMinF32 ops vs) := by
        intro w hw
        have := l2 w hw
        have := g2 w hw
        rw [value_eq, value_eq] at hvv
        rw [value_eq, value_eq]
        linarith
      have hallu : ∀ w ∈ u :: us, value w = value (findMinF32 ops vs) := by
        intro w hw
        obtain ⟨_, ⟨a, ha, h1⟩, ⟨b, hb, h2⟩⟩ := hm w hw
        rw [hall a ha] at h1
        rw [hall b hb] at h2
        exact le_antisymm h2 h1
      have hFu : ∀ w ∈ u :: us, (ofBits w).Fin := fun w hw => (finite_iff w).mp (hm w hw).1
      obtain ⟨m1, _⟩ := findMin_spec (.head _) hFu
      obtain ⟨n1, _⟩ := findMax_spec (.head _) hFu
      exact eq_of_value (hm _ m1).1 (hm _ n1).1 ((hallu _ m1).trans (hallu _ n1).symm)

def isUniform (vs : List Transform) : Bool := vs.all fun t => ops.eq t.scale.x t.scale.y && ops.eq t.scale.y t.scale.z
def isUniformUv (vs : List UvTransform) : Bool := vs.all fun t => ops.eq t.scale_u t.scale_v

theorem bits_transform (vs : List Transform) (cs : Bool) : (TrackValues.transform vs).bits ops cs =
    componentBits (vs.map (·.translation.x)) + componentBits (vs.map (·.translation.y)) +
      componentBits (vs.map (·.translation.z)) +
    (if isUniform vs then componentBits (vs.map (·.scale.x)) else
      componentBits (vs.map (·.scale.x)) + componentBits (vs.map (·.scale.y)) + componentBits (vs.map (·.scale.z))) +
    (componentBits (vs.map (·.rotation.x)) + componentBits (vs.map (·.rotation.y)) +
      componentBits (vs.map (·.rotation.z)) + 1) := by
  have hmap : ∀ {β : Type} (c : UncompressedTransform → β) (c' : Transform → β),
      (∀ t, c (UncompressedTransform.fromTransform t cs) = c' t) →
      (vs.map (UncompressedTransform.fromTransform · cs)).map c = vs.map c' := by
    intro β c c' h
    rw [List.map_map]
    exact List.map_congr_left fun t _ => h t
  obtain ⟨h1, h2, h3, h4⟩ := ofUniform_bits (isUniform vs)
  show TransformCompression.bitCount ops _ (CompressionFlags.ofUniform (isUniform vs)) = _
  unfold TransformCompression.bitCount
  rw [h1, h2, h3, h4]
  simp only [if_true, Vector3Compression.bitCount, CompressedData.params, CompressedData.transform,
    Vector3Compression.fromRange, fromRange_bits]
  rw [hmap (·.scale) (·.scale) fun _ => rfl, hmap (·.rotation) (·.rotation) fun _ => rfl,
        hmap (·.translation) (·.translation) fun _ => rfl]
  simp only [minVector3, maxVector3, minVector4, maxVector4, List.map_map, Vector4.xyz]
  rfl

theorem bits_uv (vs : List UvTransform) (cs : Bool) : (TrackValues.uvTransform vs).bits ops cs =
    (if isUniformUv vs then componentBits (vs.map (·.scale_u)) else
      componentBits (vs.map (·.scale_u)) + componentBits (vs.map (·.scale_v))) +
    componentBits (vs.map (·.rotation)) + componentBits (vs.map (·.translate_u)) + componentBits (vs.map (·.translate_v)) := by
  obtain ⟨h1, h2, h3, h4⟩ := ofUniform_bits (isUniformUv vs)
  show UvTransformCompression.bitCount ops _ (CompressionFlags.ofUniform (isUniformUv vs)) = _
  unfold UvTransformCompression.bitCount
  rw [h2]
  simp only [CompressedData.params, CompressedData.uvTransform, fromRange_bits]
  rfl

theorem bits_vector4 (vs : List Vector4) (cs : Bool) : (TrackValues.vector4 vs).bits ops cs =
    componentBits (vs.map (·.x)) + componentBits (vs.map (·.y)) + componentBits (vs.map (·.z)) +
      componentBits (vs.map (·.w)) := by
  show Vector4Compression.bitCount ops _ = _
  unfold Vector4Compression.bitCount
  simp only [CompressedData.params, CompressedData.vector4, Vector4Compression.fromRange, fromRange_bits, minVector4,
    maxVector4]
  rfl

theorem bits_float (vs : List F32) (cs : Bool) : (TrackValues.float vs).bits ops cs = componentBits vs :=
  fromRange_bits _ _

theorem quantized_len_le (values : TrackValues) (cs : Bool) : (values.quantized ops cs).1.len ≤ values.len := by
  have key : ∀ {T : Type} (n : Nat) (vs : List T), (storedFrames n vs).length ≤ vs.length := by
    intro T n vs
    unfold storedFrames
    split
    · exact List.length_take_le' _ _
    · exact Nat.le_refl _
  cases values with
  | boolean vs => exact Nat.le_refl _
  | transform vs =>
    simp only [TrackValues.quantized, TrackValues.len, List.length_map]
    exact Nat.le_trans (key _ _) (by simp)
  | _ => simp only [TrackValues.quantized, TrackValues.len, List.length_map]; exact key _ _

/-- Quantized values need no more bits per frame. -/
theorem bits_quantized_le (values : TrackValues) (cs cs' : Bool) (ht : Tame values) :
    (values.quantized ops cs).1.bits ops cs' ≤ values.bits ops cs := by
  have hlen := quantized_len_le values cs
  obtain ⟨hn, hc⟩ := quantized_close values cs
  have key : ∀ (i : Nat) (vs us : List F32), (channels values)[i]? = some vs →
      (channels (values.quantized ops cs).1)[i]? = some us → componentBits us ≤ componentBits vs := by
    intro i vs us h1 h2
    refine componentBits_le (hc i vs us h1 h2) ?_ (ht vs (List.mem_of_getElem? h1))
    rw [channels_length (List.mem_of_getElem? h1), channels_length (List.mem_of_getElem? h2)]
    exact hlen
  have hm := fun (i : Nat) (vs us : List F32) (h1 : (channels values)[i]? = some vs)
      (h2 : (channels (values.quantized ops cs).1)[i]? = some us) => close_members (hc i vs us h1 h2) (by
    rw [channels_length (List.mem_of_getElem? h1), channels_length (List.mem_of_getElem? h2)]
    exact hlen) (ht vs (List.mem_of_getElem? h1))
  cases values with
  | patternIndex vs => exact Nat.le_refl 24
  | boolean vs => exact Nat.le_refl 1
  | float vs =>
    have k := key 0 _ _ rfl rfl
    simp only [TrackValues.quantized] at k ⊢
    generalize List.map (floatQuant ops vs) _ = qs at k ⊢
    rw [bits_float, bits_float]
    exact k
  | vector4 vs =>
    have k0 := key 0 _ _ rfl rfl
    have k1 := key 1 _ _ rfl rfl
    have k2 := key 2 _ _ rfl rfl
    have k3 := key 3 _ _ rfl rfl
    simp only [TrackValues.quantized] at k0 k1 k2 k3 ⊢
    generalize List.map (vector4Quant ops vs) _ = qs at k0 k1 k2 k3 ⊢
    rw [bits_vector4, bits_vector4]
    omega
  | uvTransform vs =>
    have k0 := key 0 _ _ rfl rfl
    have k1 := key 1 _ _ rfl rfl
    have k2 := key 2 _ _ rfl rfl
    have k3 := key 3 _ _ rfl rfl
    have k4 := key 4 _ _ rfl rfl
    have hx := hm 0 _ _ rfl rfl
    have hu : isUniformUv vs = true →
        isUniformUv ((storedFrames ((TrackValues.uvTransform vs).bits ops cs) vs).map
          (uvQuant ops vs (CompressionFlags.fromTrack ops (.uvTransform vs)))) = true := by
      intro hu
      have hf : (CompressionFlags.fromTrack ops (.uvTransform vs)).uniformScale = true := by
        rw [show CompressionFlags.fromTrack ops (.uvTransform vs) = .ofUniform (isUniformUv vs) from rfl,
          (ofUniform_bits _).2.1, hu]
      unfold isUniformUv
      rw [List.all_eq_true]
      intro u hmem
      have hfin := (hx u.scale_u (List.mem_map_of_mem (f := (·.scale_u)) hmem)).1
      obtain ⟨v, _, rfl⟩ := List.mem_map.mp hmem
      have e : (uvQuant ops vs (CompressionFlags.fromTrack ops (.uvTransform vs)) v).scale_v =
          (uvQuant ops vs (CompressionFlags.fromTrack ops (.uvTransform vs)) v).scale_u := by
        simp only [uvQuant, quantUv, hf, if_true]
      rw [e]
      exact eq_of_value hfin hfin rfl
    simp only [TrackValues.quantized] at k0 k1 k2 k3 k4 ⊢
    generalize List.map (uvQuant ops vs _) _ = qs at hu k0 k1 k2 k3 k4 ⊢
    rw [bits_uv, bits_uv]
    cases h1 : isUniformUv vs with
    | true => rw [hu h1]; simp only [if_true]; omega
    | false => simp only [Bool.false_eq_true, if_false]; split <;> omega
  | transform vs =>
    have k0 := key 0 _ _ rfl rfl
    have k1 := key 1 _ _ rfl rfl
    have k2 := key 2 _ _ rfl rfl
    have k3 := key 3 _ _ rfl rfl
    have k4 := key 4 _ _ rfl rfl
    have k5 := key 5 _ _ rfl rfl
    have k6 := key 6 _ _ rfl rfl
    have k7 := key 7 _ _ rfl rfl
    have k8 := key 8 _ _ rfl rfl
    have hx := hm 0 _ _ rfl rfl
    simp only [TrackValues.quantized] at k0 k1 k2 k3 k4 k5 k6 k7 k8 hx ⊢
    generalize hq : List.map Transform.ofUncompressed _ = qs at k0 k1 k2 k3 k4 k5 k6 k7 k8 hx ⊢
    have hu : isUniform vs = true → isUniform qs = true := by
      intro hu
      have hf : (CompressionFlags.fromTrack ops (.transform vs)).uniformScale = true := by
        rw [show CompressionFlags.fromTrack ops (.transform vs) = .ofUniform (isUniform vs) from rfl,
          (ofUniform_bits _).2.1, hu]
      unfold isUniform
      rw [List.all_eq_true]
      intro u hmem
      have hfin := (hx u.scale.x (List.mem_map_of_mem (f := (·.scale.x)) hmem)).1
      subst hq
      obtain ⟨w, hw, rfl⟩ := List.mem_map.mp hmem
      obtain ⟨v, _, rfl⟩ := List.mem_map.mp hw
      simp only [transformQuant, quantTransform, hf, if_true, Transform.ofUncompressed] at hfin ⊢
      rw [eq_of_value hfin hfin rfl]
      rfl
    rw [bits_transform, bits_transform]
    cases h1 : isUniform vs with
    | true => rw [hu h1]; simp only [if_true]; omega
    | false => simp only [Bool.false_eq_true, if_false]; split <;> omega

/-! ## Tracks -/

theorem kept_quantized {t t' : TrackData} (h : Kept ops t t') (hc : inferOptimalCompressionType t.values = .Compressed) :
    t'.values = (t.values.quantized ops t.compensate_scale).1 := by
  obtain ⟨b, hw, hr⟩ := h.decoded
  obtain ⟨b', hw', _, hr'⟩ := t.values.compressed ops t.compensate_scale
  rw [hc] at hw hr
  rw [hw] at hw'
  cases hw'
  have := hr' []
  rw [List.append_nil, hr] at this
  rw [← Except.ok.inj this]

theorem same_sizes {a b : TrackValues} (h : a.trackType = b.trackType) : a.overhead = b.overhead ∧ a.dataSize = b.dataSize := by
  cases a <;> cases b <;> first | exact ⟨rfl, rfl⟩ | cases h

theorem infer_same {a b : TrackValues} (h : a.trackType = b.trackType) (hl : a.len = b.len) :
    inferOptimalCompressionType a = inferOptimalCompressionType b := by
  obtain ⟨h1, h2⟩ := same_sizes h
  unfold inferOptimalCompressionType
  rw [hl, h1, h2]
  cases a <;> cases b <;> first | rfl | cases h

/-- The data of a track which was saved and opened is not longer. -/
theorem track_shrinks {t t' : TrackData} (h : Kept ops t t') (ht : Tame t.values) {b : Bytes}
    (hw : t.values.write ops (inferOptimalCompressionType t.values) t.compensate_scale = .ok b) :
    ∃ b', t'.values.write ops (inferOptimalCompressionType t'.values) t'.compensate_scale = .ok b' ∧ b'.length ≤ b.length := by
  by_cases hc : inferOptimalCompressionType t.values = .Compressed
  · obtain ⟨c, hcw, hcl, _⟩ := t.values.compressed ops t.compensate_scale
    rw [hc, hcw] at hw
    cases hw
    obtain ⟨ho, hd⟩ := same_sizes h.type
    have hle : t'.values.len ≤ t.values.len := kept_len h
    by_cases hc' : inferOptimalCompressionType t'.values = .Compressed
    · obtain ⟨c', hcw', hcl', _⟩ := t'.values.compressed ops t'.compensate_scale
      refine ⟨c', by rw [hc']; exact hcw', ?_⟩
      rw [hcl, hcl', ho]
      have hb : t'.values.bits ops t'.compensate_scale ≤ t.values.bits ops t.compensate_scale := by
        rw [kept_quantized h hc]
        exact bits_quantized_le _ _ _ ht
      have := Nat.mul_le_mul hle hb
      omega
    · obtain ⟨c', hcw', hcl', _⟩ := t'.values.uncompressed ops _ hc' t'.compensate_scale
      refine ⟨c', hcw', ?_⟩
      have hlen : t'.values.len ≤ 1 := by
        obtain ⟨b1, hw1, hr1⟩ := C24_frame_count_partial ops t.values t.compensate_scale
        obtain ⟨b2, hw2, hr2⟩ := h.decoded
        rw [hc] at hw2 hr2
        rw [hw2] at hw1
        cases hw1
        obtain ⟨out, cs, hr', _, h1, h2⟩ := hr1 []
        rw [List.append_nil, hr2] at hr'
        cases hr'
        by_cases hk : ConstantTrack ops t.values
        · rw [h2 hk]; omega
        · exact absurd ((infer_same h.type (h1 hk)).trans hc) hc'
      rw [hcl, hcl', hd]
      have : t.values.dataSize ≤ t.values.overhead := by
        cases t.values <;> exact Nat.le_trans (Nat.le_add_left _ 16) (Nat.le_add_right _ _)
      have := Nat.mul_le_mul_right t.values.dataSize hlen
      omega
  · have e := h.exact hc
    obtain ⟨c, hcw, hcl, _⟩ := t.values.uncompressed ops _ hc t.compensate_scale
    rw [hcw] at hw
    cases hw
    obtain ⟨c', hcw', hcl', _⟩ := t.values.uncompressed ops _ hc t'.compensate_scale
    rw [e]
    exact ⟨c', hcw', by rw [hcl, hcl']⟩

/-! ## The format -/

/-- What is the same in the format data of both files. -/
def SameTrack (a b : Anim.TrackV2) : Prop := b.name = a.name
def SameNode (a b : Anim.Node) : Prop := b.name = a.name ∧ List.Forall₂ SameTrack a.tracks b.tracks
def SameGroup (a b : Anim.Group) : Prop := List.Forall₂ SameNode a.nodes b.nodes

/-- A step with a shorter buffer. -/
def Step (R : β → β → Prop) (f : Bytes → α → Except AnimErr (β × Bytes)) (x x' : α) : Prop :=
  ∀ s s' y t, s'.length ≤ s.length → f s x = .ok (y, t) → ∃ y' t', f s' x' = .ok (y', t') ∧ R y y' ∧ t'.length ≤ t.length

theorem mapState_step {R : β → β → Prop} {f : Bytes → α → Except AnimErr (β × Bytes)} (g : α → α) : ∀ (xs : List α),
    (∀ x ∈ xs, Step R f x (g x)) → ∀ s s' ys t, s'.length ≤ s.length → mapState f s xs = .ok (ys, t) →
      ∃ ys' t', mapState f s' (xs.map g) = .ok (ys', t') ∧ List.Forall₂ R ys ys' ∧ t'.length ≤ t.length
  | [], _, s, s', ys, t, hs, h => by
    cases h
    exact ⟨[], s', rfl, .nil, hs⟩
  | x :: xs, hx, s, s', ys, t, hs, h => by
    unfold mapState at h
    cases h1 : f s x with
    | error e => rw [h1] at h; cases h
    | ok r =>
      obtain ⟨y, s1⟩ := r
      rw [h1] at h
      simp only at h
      cases h2 : mapState f s1 xs with
      | error e => rw [h2] at h; cases h
      | ok r =>
        obtain ⟨ys1, s2⟩ := r
        rw [h2] at h
        cases h
        obtain ⟨y', s1', e1, r1, l1⟩ := hx x (.head _) s s' y s1 hs h1
        obtain ⟨ys', s2', e2, r2, l2⟩ := mapState_step g xs (fun z hz => hx z (.tail _ hz)) s1 s1' ys1 t l1 h2
        refine ⟨y' :: ys', s2', ?_, .cons r1 r2, l2⟩
        simp only [List.map_cons, mapState, e1, e2]

theorem track_step {t t' : TrackData} (h : Kept ops t t') (ht : Tame t.values) : Step SameTrack (createTrack ops) t t' := by
  intro s s' y b hs hc
  unfold createTrack at hc
  cases hw : t.values.write ops (inferOptimalCompressionType t.values) t.compensate_scale with
  | error e => simp only [hw] at hc; cases hc
  | ok d =>
    simp only [hw] at hc
    cases hc
    obtain ⟨d', hw', hl⟩ := track_shrinks h ht hw
    refine ⟨_, s' ++ d', by unfold createTrack; simp only [hw']; rfl, ?_, by simp only [List.length_append]; omega⟩
    show ssbhText t'.name = ssbhText t.name
    rw [h.name, ssbhText_cutNul]

theorem node_step {f : TrackData → TrackData} {n : NodeData}
    (hf : ∀ t ∈ n.tracks, Kept ops t (f t) ∧ Tame t.values) :
    Step SameNode (createNode ops) n ⟨cutNul n.name, n.tracks.map f⟩ := by
  intro s s' y t hs hc
  unfold createNode at hc
  cases hm : mapState (createTrack ops) s n.tracks with
  | error e => rw [hm] at hc; cases hc
  | ok r =>
    obtain ⟨ts, t1⟩ := r
    rw [hm] at hc
    cases hc
    obtain ⟨ts', t', e, hr, hl⟩ := mapState_step (R := SameTrack) (f := createTrack ops) f n.tracks
      (fun t ht => track_step (hf t ht).1 (hf t ht).2) s s' ts t hs hm
    exact ⟨⟨ssbhText (cutNul n.name), ts'⟩, t', by unfold createNode; simp only [e], ⟨ssbhText_cutNul n.name, hr⟩, hl⟩

theorem group_step {f : TrackData → TrackData} {g : GroupData}
    (hf : ∀ n ∈ g.nodes, ∀ t ∈ n.tracks, Kept ops t (f t) ∧ Tame t.values) :
    Step SameGroup (createGroup ops) g ⟨g.group_type, g.nodes.map fun n => ⟨cutNul n.name, n.tracks.map f⟩⟩ := by
  intro s s' y t hs hc
  unfold createGroup at hc
  cases hm : mapState (createNode ops) s g.nodes with
  | error e => rw [hm] at hc; cases hc
  | ok r =>
    obtain ⟨ns, t1⟩ := r
    rw [hm] at hc
    cases hc
    obtain ⟨ns', t', e, hr, hl⟩ := mapState_step (R := SameNode) (f := createNode ops)
      (fun n : NodeData => ⟨cutNul n.name, n.tracks.map f⟩) g.nodes (fun n hn => node_step (hf n hn)) s s' ns t hs hm
    exact ⟨⟨g.group_type, ns'⟩, t', by unfold createGroup; simp only [e], hr, hl⟩

theorem groups_step {f : TrackData → TrackData} {groups : List GroupData}
    (hf : ∀ t ∈ dataTracks groups, Kept ops t (f t) ∧ Tame t.values) {ys : List Anim.Group} {b : Bytes}
    (h : mapState (createGroup ops) [] groups = .ok (ys, b)) :
    ∃ ys' b', mapState (createGroup ops) [] (mapTracks f groups) = .ok (ys', b') ∧ List.Forall₂ SameGroup ys ys' ∧
      b'.length ≤ b.length := by
  have hx : ∀ g ∈ groups, Step SameGroup (createGroup ops) g
      ⟨g.group_type, g.nodes.map fun n => ⟨cutNul n.name, n.tracks.map f⟩⟩ := fun g hg => group_step fun n hn t ht =>
    hf t (List.mem_flatMap.mpr ⟨g, hg, List.mem_flatMap.mpr ⟨n, hn, ht⟩⟩)
  obtain ⟨ys', b', e, r⟩ := mapState_step _ groups hx [] [] ys b (Nat.le_refl _) h
  exact ⟨ys', b', e, r⟩

theorem text_size (a : Nat) (v : SsbhString) : (text a v).size = 8 := by cases v <;> rfl

theorem track_size (v : Anim.TrackV2) : 0 < v.image.size := by
  show 0 < (text 4 v.name).size + _
  rw [text_size]; omega

theorem node_size (v : Anim.Node) : 0 < v.image.size := by
  show 0 < (text 4 v.name).size + _
  rw [text_size]; omega

theorem group_size (v : Anim.Group) : 0 < v.image.size := by
  show 0 < 8 + 16
  omega

theorem track_image {a b : Anim.TrackV2} (h : SameTrack a b) : Shrinks a.image b.image := by
  unfold Anim.TrackV2.image
  rw [show b.name = a.name from h]
  exact (Shrinks.text (by decide) _).and (((((Shrinks.number _ _ _).and (Shrinks.number _ _ _)).and (Shrinks.padding 2)).and
    ((Shrinks.number _ _ _).and ((Shrinks.number _ _ _).and ((Shrinks.number _ _ _).and (Shrinks.number _ _ _))))))

theorem node_image {a b : Anim.Node} (h : SameNode a b) : Shrinks a.image b.image := by
  unfold Anim.Node.image
  rw [h.1]
  exact (Shrinks.text (by decide) _).and (Shrinks.list track_size (h.2.imp fun _ _ => track_image))

theorem group_image {a b : Anim.Group} (h : SameGroup a b) : Shrinks a.image b.image :=
  (Shrinks.number _ _ _).and (Shrinks.list node_size (List.Forall₂.imp (fun _ _ => node_image) h))

theorem groups_image {as bs : List Anim.Group} (h : List.Forall₂ SameGroup as bs) :
    Shrinks (Image.list Anim.Group.image as) (Image.list Anim.Group.image bs) :=
  Shrinks.list group_size (h.imp fun _ _ => group_image)

/-- The file for groups and a buffer. -/
def container (minor : UInt16) (final : F32) (groups : List Anim.Group) (buffer : Bytes) : Anim :=
  if minor = 0 then .V20 { final_frame_index := final, unk1 := 1, unk2 := 3, name := ssbhText "", groups, buffer }
  else .V21 { final_frame_index := final, unk1 := 1, unk2 := 3, name := ssbhText "", groups, buffer, unk_data := ⟨[], []⟩ }

theorem create_container {d : AnimData} {a : Anim} (h : create ops d = .ok a) :
    ∃ groups buffer, mapState (createGroup ops) [] d.groups = .ok (groups, buffer) ∧
      a = container d.minor_version d.final_frame_index groups buffer := by
  unfold create at h
  simp only at h
  cases hm : mapState (createGroup ops) [] d.groups with
  | error e =>
    rw [hm] at h
    simp only at h
    split at h
    · cases h
    · split at h <;> cases h
  | ok r =>
    obtain ⟨groups, buffer⟩ := r
    rw [hm] at h
    simp only at h
    refine ⟨groups, buffer, rfl, ?_⟩
    unfold container
    split at h
    · rename_i hv
      split at h
      · cases h
        rw [if_pos hv.2]
      · cases h
    · split at h
      · rename_i hv
        split at h
        · cases h
          rw [if_neg (by rw [hv.2]; decide)]
        · cases h
      · cases h

theorem container_shrinks (minor : UInt16) (final : F32) {groups groups' : List Anim.Group} {buffer buffer' : Bytes}
    (hg : List.Forall₂ SameGroup groups groups') (hb : buffer'.length ≤ buffer.length) :
    (container minor final groups' buffer').image.bytes.length ≤ (container minor final groups buffer).image.bytes.length ∧
    (container minor final groups' buffer').image.stop ≤ (container minor final groups buffer).image.stop := by
  have h1 := groups_image hg
  have h2 := Shrinks.buffer hb
  unfold container
  split
  · refine File.shrinks rfl rfl (Nat.succ_pos _) rfl ?_
    exact (Shrinks.number _ _ _).and ((Shrinks.number _ _ _).and ((Shrinks.number _ _ _).and
      ((Shrinks.text (by decide) _).and (h1.and h2))))
  · refine File.shrinks rfl rfl (Nat.succ_pos _) rfl ?_
    exact (Shrinks.number _ _ _).and ((Shrinks.number _ _ _).and ((Shrinks.number _ _ _).and
      ((Shrinks.text (by decide) _).and (h1.and (h2.and
        ((Shrinks.list (fun v => by show 0 < 8 + 16; omega) .nil).and
          (Shrinks.list (fun v => by show 0 < (text 4 v.unk1).size + _; rw [text_size]; omega) .nil)))))))

/-! ### The end of a file -/

theorem track_tight (v : Anim.TrackV2) : Tight v.image :=
  Tight.and (text_good (by decide) _) Tight.text (Tight.and (((number_good _ _).and (number_good _ _)).and (padding_good 2))
    (Tight.and ((number_good _ _).and (number_good _ _)) (Tight.and (number_good _ _) (Tight.number _ _) (Tight.number _ _))
      (Tight.padding 2))
    (Tight.and (number_good _ _) (Tight.number _ _) (Tight.and (number_good _ _) (Tight.number _ _)
      (Tight.and (number_good _ _) (Tight.number _ _) (Tight.number _ _)))))

theorem forall₂_refl {R : α → α → Prop} (h : ∀ x, R x x) : ∀ xs : List α, List.Forall₂ R xs xs
  | [] => .nil
  | x :: xs => .cons (h x) (forall₂_refl h xs)

theorem sameTrack_refl (v : Anim.TrackV2) : SameTrack v v := rfl
theorem sameNode_refl (v : Anim.Node) : SameNode v v := ⟨rfl, forall₂_refl sameTrack_refl _⟩
theorem sameGroup_refl (v : Anim.Group) : SameGroup v v := forall₂_refl sameNode_refl _

theorem node_tight (v : Anim.Node) : Tight v.image :=
  Tight.and (text_good (by decide) _) Tight.text
    (Tight.list track_size (fun t _ => (track_image (sameTrack_refl t)).left) fun t _ => track_tight t)

theorem group_tight (v : Anim.Group) : Tight v.image :=
  Tight.and (number_good _ _) (Tight.number _ _)
    (Tight.list node_size (fun t _ => (node_image (sameNode_refl t)).left) fun t _ => node_tight t)

theorem container_stop (minor : UInt16) (final : F32) (groups : List Anim.Group) (buffer : Bytes) :
    (container minor final groups buffer).image.stop ≤ next 8 (container minor final groups buffer).image.bytes.length := by
  have h1 : Tight (Image.list Anim.Group.image groups) :=
    Tight.list group_size (fun t _ => (group_image (sameGroup_refl t)).left) fun t _ => group_tight t
  have g1 := (groups_image (forall₂_refl sameGroup_refl groups)).left
  have h2 := Tight.buffer buffer
  have g2 := buffer_good buffer
  unfold container
  split
  · refine File.stop_le rfl (Nat.succ_pos _) ?_ ?_
    · exact (number_good _ _).and ((number_good _ _).and ((number_good _ _).and ((text_good (by decide) _).and (g1.and g2))))
    · exact Tight.and (number_good _ _) (Tight.number _ _) (Tight.and (number_good _ _) (Tight.number _ _)
        (Tight.and (number_good _ _) (Tight.number _ _) (Tight.and (text_good (by decide) _) Tight.text (Tight.and g1 h1 h2))))
  · have s1 : ∀ v : Anim.UnkItem1, 0 < v.image.size := fun v => by show 0 < 8 + 16; omega
    have s2 : ∀ v : Anim.UnkItem2, 0 < v.image.size := fun v => by
      show 0 < (text 4 v.unk1).size + _; rw [text_size]; omega
    have l1 := Shrinks.list s1 (.nil : List.Forall₂ (fun v u => Shrinks (Anim.UnkItem1.image v) (Anim.UnkItem1.image u)) [] [])
    have l2 := Shrinks.list s2 (.nil : List.Forall₂ (fun v u => Shrinks (Anim.UnkItem2.image v) (Anim.UnkItem2.image u)) [] [])
    have t1 : Tight (Image.list Anim.UnkItem1.image []) := Tight.list s1 (by simp) (by simp)
    have t2 : Tight (Image.list Anim.UnkItem2.image []) := Tight.list s2 (by simp) (by simp)
    refine File.stop_le rfl (Nat.succ_pos _) ?_ ?_
    · exact (number_good _ _).and ((number_good _ _).and ((number_good _ _).and ((text_good (by decide) _).and (g1.and
        (g2.and (l1.left.and l2.left))))))
    · exact Tight.and (number_good _ _) (Tight.number _ _) (Tight.and (number_good _ _) (Tight.number _ _)
        (Tight.and (number_good _ _) (Tight.number _ _) (Tight.and (text_good (by decide) _) Tight.text (Tight.and g1 h1
          (Tight.and g2 h2 (Tight.and l1.left t1 t2))))))

/-! ## C86 -/

/-- What was saved and opened can be saved again, and the file is not longer. -/
theorem write_shrinks (d d' : AnimData) (bytes : Bytes) (h : d.write ops = .ok bytes) (hb : bytes.length < 2 ^ 32)
    (hl : ∀ t ∈ dataTracks d.groups, t.values.len < 2 ^ 32) (ht : ∀ t ∈ dataTracks d.groups, Tame t.values)
    (hr : AnimData.read ops bytes = some (.ok d')) :
    ∃ bytes', d'.write ops = .ok bytes' ∧ bytes'.length ≤ bytes.length := by
  have hres : Resaved 1 d d' := .succ bytes (.zero d) h hb hr
  obtain ⟨f, hf, ho⟩ := C45_anim_file ops d bytes h hl hb
  rw [ho] at hr
  cases hr
  obtain ⟨a, ha, hwa⟩ : ∃ a, create ops d = .ok a ∧ writeAs a = .ok bytes := by
    unfold AnimData.write at h
    cases hc : create ops d with
    | error e => rw [hc] at h; cases h
    | ok a =>
      rw [hc] at h
      refine ⟨a, rfl, ?_⟩
      cases hw : writeAs a with
      | error e => simp only [hw] at h; cases h
      | ok b => simp only [hw] at h; cases h; rfl
  obtain ⟨a', ha'⟩ : ∃ a', create ops { d with groups := mapTracks f d.groups } = .ok a' := by
    have := C84_again 1 d _ hres (by decide) hl
    unfold AnimData.write at this
    cases hc : create ops { d with groups := mapTracks f d.groups } with
    | error e => rw [hc] at this; rcases this with ⟨b, h⟩ | h <;> cases h
    | ok a => exact ⟨a, rfl⟩
  obtain ⟨groups, buffer, hm, rfl⟩ := create_container ha
  obtain ⟨groups', buffer', hm', rfl⟩ := create_container ha'
  obtain ⟨groups'', buffer'', hm'', hg, hle⟩ := groups_step (f := f) (fun t h => ⟨hf t, ht t h⟩) hm
  rw [hm'] at hm''
  cases hm''
  obtain ⟨s1, s2⟩ := container_shrinks d.minor_version d.final_frame_index hg hle
  have e := (C69_format (f := Anim.image) (container d.minor_version d.final_frame_index groups buffer)).1 bytes hwa
  have h3 := container_stop d.minor_version d.final_frame_index groups buffer
  rw [← e] at s1 h3
  refine ⟨_, ?_, s1⟩
  unfold AnimData.write
  rw [ha']
  have := (C69_format (f := Anim.image) (container d.minor_version d.final_frame_index groups' buffer')).2 (by
    have : next 8 bytes.length < 2 ^ 64 := by unfold next; omega
    omega)
  simp only [this]
  rfl

theorem kept_tame {t t' : TrackData} (h : Kept ops t t') (ht : Tame t.values) : Tame t'.values := by
  obtain ⟨hlen, hc⟩ := kept_close h
  intro us hus
  obtain ⟨i, hi, rfl⟩ := List.getElem_of_mem hus
  have hi' : i < (channels t.values).length := by rw [hlen]; exact hi
  have h1 := List.getElem?_eq_getElem hi'
  have h2 := List.getElem?_eq_getElem hi
  have hm := List.mem_of_getElem? h1
  have := close_members (hc i _ _ h1 h2) (by
    rw [channels_length hm, channels_length hus]
    exact kept_len h) (ht _ hm)
  intro u hu
  obtain ⟨hf, _, v, hv, hle⟩ := this u hu
  refine ⟨hf, fun u' hu' => ?_⟩
  obtain ⟨_, ⟨v', hv', hle'⟩, _⟩ := this u' hu'
  have := (ht _ hm v hv).2 v' hv'
  linarith

/-- The conditions hold again for what was opened. -/
theorem conditions_kept {d d' : AnimData} {bytes : Bytes} (h : d.write ops = .ok bytes) (hb : bytes.length < 2 ^ 32)
    (hl : ∀ t ∈ dataTracks d.groups, t.values.len < 2 ^ 32) (ht : ∀ t ∈ dataTracks d.groups, Tame t.values)
    (hr : AnimData.read ops bytes = some (.ok d')) :
    (∀ t ∈ dataTracks d'.groups, t.values.len < 2 ^ 32) ∧ ∀ t ∈ dataTracks d'.groups, Tame t.values := by
  obtain ⟨f, hf, ho⟩ := C45_anim_file ops d bytes h hl hb
  rw [ho] at hr
  cases hr
  constructor
  · intro t hm
    obtain ⟨s, hs, rfl⟩ := mem_dataTracks_mapTracks.mp hm
    exact Nat.lt_of_le_of_lt (kept_len (hf s)) (hl s hs)
  · intro t hm
    obtain ⟨s, hs, rfl⟩ := mem_dataTracks_mapTracks.mp hm
    exact kept_tame (hf s) (ht s hs)

/-- The files saved one after another, each from what was opened from the one before. -/
inductive Saves : AnimData → List Bytes → Prop
  | one {d : AnimData} {bytes : Bytes} (saved : d.write ops = .ok bytes) : Saves d [bytes]
  | more {d d' : AnimData} {bytes : Bytes} {files : List Bytes} (saved : d.write ops = .ok bytes)
    (opened : AnimData.read ops bytes = some (.ok d')) (rest : Saves d' files) : Saves d (bytes :: files)

/-- A saved animation can be opened and saved again any number of times, and no file is longer than the one before. -/
theorem C86_shrinks (d : AnimData) (bytes : Bytes) (h : d.write ops = .ok bytes) (hb : bytes.length < 2 ^ 32)
    (hl : ∀ t ∈ dataTracks d.groups, t.values.len < 2 ^ 32) (ht : ∀ t ∈ dataTracks d.groups, Tame t.values) (n : Nat) :
    ∃ files, Saves d files ∧ files.length = n + 1 ∧ files.head? = some bytes ∧
      files.Pairwise fun before after => after.length ≤ before.length := by
  induction n generalizing d bytes with
  | zero => exact ⟨[bytes], .one h, rfl, rfl, List.pairwise_singleton _ _⟩
  | succ n ih =>
    obtain ⟨f, _, hr⟩ := C45_anim_file ops d bytes h hl hb
    obtain ⟨bytes', hw, hle⟩ := write_shrinks d _ bytes h hb hl ht hr
    obtain ⟨hl', ht'⟩ := conditions_kept h hb hl ht hr
    obtain ⟨files, hs, hn, hh, hp⟩ := ih _ bytes' hw (by omega) hl' ht'
    refine ⟨bytes :: files, .more h hr hs, by simp [hn], rfl, List.pairwise_cons.mpr ⟨fun b hm => ?_, hp⟩⟩
    cases files with
    | nil => cases hm
    | cons c cs =>
      cases hh
      rcases List.mem_cons.mp hm with rfl | hm
      · exact hle
      · exact Nat.le_trans ((List.pairwise_cons.mp hp).1 b hm) hle

/-- So the bounds on what is left after `n` times hold without conditions on the files in between. -/
theorem C86_forever (d : AnimData) (bytes : Bytes) (h : d.write ops = .ok bytes) (hb : bytes.length < 2 ^ 32)
    (hl : ∀ t ∈ dataTracks d.groups, t.values.len < 2 ^ 32) (ht : ∀ t ∈ dataTracks d.groups, Tame t.values) (n : Nat) :
    (∃ d', Resaved n d d') ∧ ∀ d', Resaved n d d' → ∃ bytes', d'.write ops = .ok bytes' ∧ bytes'.length ≤ bytes.length := by
  have hall : ∀ (n : Nat) (d0 d' : AnimData), Resaved n d0 d' → d0 = d →
      (∃ bytes', d'.write ops = .ok bytes' ∧ bytes'.length ≤ bytes.length) ∧
      (∀ t ∈ dataTracks d'.groups, t.values.len < 2 ^ 32) ∧ ∀ t ∈ dataTracks d'.groups, Tame t.values := by
    intro n d0 d' hres
    induction hres with
    | zero d0 => rintro rfl; exact ⟨⟨bytes, h, Nat.le_refl _⟩, hl, ht⟩
    | succ b before saved small opened ih =>
      intro e
      obtain ⟨⟨b', hw, hle⟩, hl', ht'⟩ := ih e
      rw [hw] at saved
      cases saved
      obtain ⟨b'', hw', hle'⟩ := write_shrinks _ _ _ hw small hl' ht' opened
      exact ⟨⟨b'', hw', Nat.le_trans hle' hle⟩, conditions_kept hw small hl' ht' opened⟩
  refine ⟨?_, fun d' hres => (hall n d d' hres rfl).1⟩
  induction n with
  | zero => exact ⟨d, .zero d⟩
  | succ n ih =>
    obtain ⟨d1, hres⟩ := ih
    obtain ⟨⟨b, hw, hle⟩, hl', _⟩ := hall n d d1 hres rfl
    obtain ⟨f, _, hr⟩ := C45_anim_file ops d1 b hw hl' (by omega)
    exact ⟨_, .succ b hres hw (by omega) hr⟩

/-! ## Examples -/

/-- The animation of C53, with a component that drifts, can be saved forever. -/
example : (∃ bytes, driftingAnim.write ops = .ok bytes ∧ bytes.length < 2 ^ 32) ∧
    (∀ t ∈ dataTracks driftingAnim.groups, t.values.len < 2 ^ 32) ∧
    ∀ t ∈ dataTracks driftingAnim.groups, Tame t.values := by
  refine ⟨?_, by decide +kernel, ?_⟩
  · have h : (match driftingAnim.write ops with | .ok b => decide (b.length < 2 ^ 32) | .error _ => false) = true := by
      decide +kernel
    cases hw : driftingAnim.write ops with
    | error e => rw [hw] at h; cases h
    | ok b => rw [hw] at h; exact ⟨b, rfl, of_decide_eq_true h⟩
  · intro t ht vs hvs
    have ht : t = _ := List.mem_singleton.mp ht
    subst ht
    have hvs : vs = _ := List.mem_singleton.mp hvs
    subst hvs
    decide +kernel

/-- A frame with the same scale in every direction. -/
def scaledFrame (s : F32) : Transform := ⟨⟨s, s, s⟩, ⟨0, 0, 0, 0x3f800000⟩, ⟨0, 0, 0⟩⟩

/-- Scales of one, and one of infinity. -/
def growingAnim : AnimData :=
  ⟨2, 0, 0x41a00000, [⟨.Transform, [⟨"n",
    [⟨"t", false, ⟨false, false, false, false⟩, .transform (scaledFrame 0x7f800000 :: List.replicate 9 (scaledFrame 0x3f800000))⟩]⟩]⟩]⟩

/-- With a value that is not finite the second file can be longer: the frames with an infinite scale are opened with
scales that are no numbers, and these are not equal to each other, so all three are saved for every frame. -/
theorem C86_grows : ∃ d d' : AnimData, ∃ bytes bytes' : Bytes, d.write ops = .ok bytes ∧
    AnimData.read ops bytes = some (.ok d') ∧ d'.write ops = .ok bytes' ∧ bytes.length < bytes'.length := by
  have h : (match growingAnim.write ops with
      | .ok bytes => (match AnimData.read ops bytes with
        | some (.ok d') => (match d'.write ops with | .ok bytes' => decide (bytes.length < bytes'.length) | .error _ => false)
        | _ => false)
      | .error _ => false) = true := by decide +kernel
  revert h
  split
  · rename_i bytes h1
    split
    · rename_i d' h2
      split
      · rename_i bytes' h3
        intro h
        exact ⟨growingAnim, d', bytes, bytes', h1, h2, h3, of_decide_eq_true h⟩
      · intro h; cases h
    · intro h; cases h
  · intro h; cases h

end Verif.Props
