import Verif.Props.AnimLayout
import Verif.Props.MeshLayout
import Verif.Props.Shown
import Verif.Props.Limits

/-!
C80: opened data is not larger than the file allows.

C51 is about the types of the formats. The data types take counts from the file (frames, vertices, indices) which say how
often something is read; here the lists of the data types are bounded by the size of the file.
-/

namespace Verif.Props
open Verif AnimData MeshData

/-! ## Animations -/

/-- The lengths of all lists of an animation, for a file of `n` bytes. -/
structure AnimWithin (n : Nat) (d : AnimData) : Prop where
  groups : d.groups.length ≤ n
  nodes : ∀ g ∈ d.groups, g.nodes.length ≤ n
  tracks : ∀ g ∈ d.groups, ∀ k ∈ g.nodes, k.tracks.length ≤ n
  /-- At least one bit for each value. -/
  values : ∀ g ∈ d.groups, ∀ k ∈ g.nodes, ∀ t ∈ k.tracks, t.values.len ≤ 8 * n
  names : ∀ g ∈ d.groups, ∀ k ∈ g.nodes, (textBytes k.name).length ≤ n ∧ ∀ t ∈ k.tracks, (textBytes t.name).length ≤ n

theorem BitAt.lt {b : Bytes} {p : Nat} {v : Bool} (h : BitAt b p v) : p < 8 * b.length := by
  obtain ⟨x, hx, -⟩ := h
  have := (List.getElem?_eq_some_iff.mp hx).1
  omega

theorem BitsAt.lt {b : Bytes} {p n v : Nat} (h : BitsAt b p n v) (hn : 0 < n) : p < 8 * b.length := BitAt.lt (h.2 0 hn)

theorem FloatsAt.lt {F : FloatOps} {data : Bytes} : ∀ {p : Nat} {rs : List Packing} {ds xs : List F32},
    FloatsAt F data p rs ds xs → 0 < widths F rs → p < 8 * data.length
  | _, [], _, _, _, h => by simp [widths] at h
  | p, r :: rs, [], _, h, _ => by cases h
  | p, r :: rs, _ :: _, [], h, _ => by cases h
  | p, r :: rs, d :: ds, x :: xs, h, hw => by
    obtain ⟨h1, h2⟩ := h
    by_cases hr : r.width F = 0
    · rw [hr] at h2
      exact FloatsAt.lt h2 (by simpa [widths, hr] using hw)
    · simp only [FloatAt, if_neg hr] at h1
      obtain ⟨n, hn, -⟩ := h1
      refine hn.lt (Nat.pos_of_ne_zero fun h0 => hr ?_)
      simp [Packing.width, h0]

/-- A frame of a storage begins inside of the data, if it has any bits. -/
def Begins (S : Storage T) : Prop := ∀ data p flags rs d v, S.packed data p flags rs d v → 0 < S.bits flags rs →
  p < 8 * data.length

theorem float_begins (F : FloatOps) : Begins (floatStorage F) := fun _ _ _ _ _ _ h hb => FloatsAt.lt h hb
theorem vector_begins (F : FloatOps) : Begins (vectorStorage F) := fun _ _ _ _ _ _ h hb => FloatsAt.lt h hb
theorem boolean_begins : Begins booleanStorage := fun _ _ _ _ _ _ h _ => BitsAt.lt h (by decide)
theorem pattern_begins (F : FloatOps) : Begins (patternStorage F) := by
  rintro data p flags rs d v ⟨r, n, rfl, h, -⟩ hb
  exact h.lt (by simpa [patternStorage] using hb)
theorem uv_begins (F : FloatOps) : Begins (uvStorage F) := by
  intro data p flags rs d v h hb
  simp only [uvStorage] at h hb
  split at h
  · rename_i hf
    rw [if_pos hf] at hb
    exact FloatsAt.lt h.1 hb
  · rename_i hf
    rw [if_neg hf] at hb
    exact FloatsAt.lt h hb

theorem transform_begins (F : FloatOps) : Begins (transformStorage F) := by
  intro data p flags rs d v h hb
  simp only [transformStorage] at h hb
  obtain ⟨h1, h2, h3, -⟩ := h
  by_cases hs : widths F (scalePart flags rs) = 0
  · rw [hs] at h2 h3 hb
    by_cases hr : flags.testBit 2 = true
    · rw [if_pos hr] at h2
      obtain ⟨-, s, h2, -⟩ := h2
      have := h2.lt
      omega
    · rw [if_neg hr] at hb
      have hr0 : widths F (rotationPart flags rs) = 0 := by simp [rotationPart, hr, widths]
      rw [hr0] at hb h3
      by_cases ht : flags.testBit 3 = true
      · rw [if_pos ht] at h3
        exact FloatsAt.lt h3 (by omega)
      · simp [translationPart, ht, widths] at hb
  · by_cases h0 : flags.testBit 0 = true
    · rw [if_pos h0] at h1
      split at h1
      · exact FloatsAt.lt h1.2.2 (by omega)
      · exact FloatsAt.lt h1 (by omega)
    · simp [scalePart, h0, widths] at hs

theorem packed_length {S : Storage T} (hS : Begins S) {b : Bytes} {count : Nat} {vs : List T}
    (h : PackedTrack S b count vs) : vs.length ≤ 8 * b.length := by
  obtain ⟨flags, defaultAt, bits, dataAt, rs, -, -, -, -, hl, -, -, hbits, -, hlen, h⟩ := h
  rcases h with ⟨-, rfl⟩ | ⟨-, d, -, h⟩
  · simp
  by_cases hb : bits = 0
  · rw [if_pos hb] at hlen
    omega
  · rcases Nat.eq_zero_or_pos vs.length with h0 | h0
    · omega
    have := hS _ _ _ _ _ _ (h (vs.length - 1) _ (List.getElem?_eq_getElem (by omega))) (by omega)
    rw [List.length_drop] at this
    have : vs.length - 1 ≤ (vs.length - 1) * bits := Nat.le_mul_of_pos_right _ (by omega)
    omega

/-- The last byte of a value lies in the data. -/
def Occupies (S : Storage T) : Prop := 0 < S.size ∧ ∀ b p v, S.plain b p v → p < b.length

theorem NumberAt.lt {b : Bytes} {p n v : Nat} (h : NumberAt b p n v) (hn : 0 < n) : p + n ≤ b.length := by
  have := (List.getElem?_eq_some_iff.mp (h.2 (n - 1) (by omega))).1
  omega

theorem WordsAt.lt {b : Bytes} {p : Nat} {w : UInt32} {ws : List UInt32} (h : WordsAt b p (w :: ws)) : p < b.length := by
  have := (h 0 w rfl).lt (by decide)
  omega

theorem plain_length {S : Storage T} (hS : Occupies S) {b : Bytes} {count : Nat} {vs : List T}
    (h : PlainTrack S b count vs) : vs.length ≤ b.length := by
  rcases Nat.eq_zero_or_pos vs.length with h0 | h0
  · omega
  have := hS.2 _ _ _ (h.2 (vs.length - 1) _ (List.getElem?_eq_getElem (by omega)))
  have : vs.length - 1 ≤ (vs.length - 1) * S.size := Nat.le_mul_of_pos_right _ hS.1
  omega

theorem track_length {S : Storage T} (h1 : Begins S) (h2 : Occupies S) {flags : Anim.TrackFlags} {b : Bytes} {count : Nat}
    {vs : List T} (h : TrackOf S flags b count vs) : vs.length ≤ 8 * b.length := by
  unfold TrackOf at h
  split at h
  · exact packed_length h1 h
  · have := plain_length h2 h
    omega

theorem values_length {F : FloatOps} {b : Bytes} {flags : Anim.TrackFlags} {count : Nat} {compensate : Bool}
    {vs : TrackValues} (h : ShowsValues F b flags count compensate vs) : vs.len ≤ 8 * b.length := by
  cases vs with
  | transform vs =>
    obtain ⟨-, ts, h, rfl, -⟩ := h
    rw [TrackValues.len, List.length_map]
    exact track_length (transform_begins F) ⟨Nat.succ_pos _, fun b p v h => WordsAt.lt h⟩ h
  | uvTransform vs => exact track_length (uv_begins F) ⟨Nat.succ_pos _, fun b p v h => WordsAt.lt h⟩ h.2.2
  | float vs => exact track_length (float_begins F) ⟨Nat.succ_pos _, fun b p v h => WordsAt.lt h⟩ h.2.2
  | patternIndex vs => exact track_length (pattern_begins F) ⟨Nat.succ_pos _, fun b p v h => WordsAt.lt h⟩ h.2.2
  | boolean vs =>
    obtain ⟨-, -, bs, h, rfl⟩ := h
    rw [TrackValues.len, List.length_map]
    exact track_length boolean_begins ⟨by decide, fun b p v h => NumberAt.lt h (by decide)⟩ h
  | vector4 vs => exact track_length (vector_begins F) ⟨Nat.succ_pos _, fun b p v h => WordsAt.lt h⟩ h.2.2

theorem forall₂_mem {R : α → β → Prop} {l : List α} {l' : List β} (h : List.Forall₂ R l l') :
    ∀ x ∈ l, ∃ y ∈ l', R x y := by
  induction h with
  | nil => simp
  | cons hx _ ih =>
    intro x hm
    rcases List.mem_cons.mp hm with rfl | hm
    · exact ⟨_, .head _, hx⟩
    · obtain ⟨y, hy, hr⟩ := ih x hm
      exact ⟨y, .tail _ hy, hr⟩

theorem text_length {t : String} {s : Option CStr} (h : IsText t s) : (textBytes t).length ≤ extent s := by
  rcases h with ⟨c, rfl, h⟩ | ⟨rfl, -⟩
  · show (textBytes t).length ≤ c.bytes.length
    rw [h]
  · exact Nat.zero_le _

theorem groups_within {F : FloatOps} {n : Nat} {buffer : Bytes} {d : AnimData} {gs : List Anim.Group}
    (hb : buffer.length ≤ n) (he : extent gs ≤ n) (h : ShowsGroups F buffer d.groups gs) : AnimWithin n d := by
  have hg : ∀ g ∈ gs, g.nodes.length ≤ n ∧ ∀ k ∈ g.nodes, k.tracks.length ≤ n ∧ extent k.name ≤ n ∧
      ∀ t ∈ k.tracks, extent t.name ≤ n := by
    intro g hg
    have h1 := (list_extent_le.mp he).2 g hg
    have h2 : extent g.nodes ≤ n := Nat.le_trans (Nat.le_max_right _ _) h1
    refine ⟨(list_extent_le.mp h2).1, fun k hk => ?_⟩
    have h3 := (list_extent_le.mp h2).2 k hk
    have h4 : extent k.tracks ≤ n := Nat.le_trans (Nat.le_max_right _ _) h3
    exact ⟨(list_extent_le.mp h4).1, (Nat.le_max_left _ _).trans h3, fun t ht =>
      (Nat.le_max_left _ _).trans ((list_extent_le.mp h4).2 t ht)⟩
  refine ⟨?_, ?_, ?_, ?_, ?_⟩
  · rw [h.length_eq]
    exact (list_extent_le.mp he).1
  · intro g hm
    obtain ⟨g', hg', -, h2⟩ := forall₂_mem h g hm
    rw [h2.length_eq]
    exact (hg g' hg').1
  · intro g hm k hk
    obtain ⟨g', hg', -, h2⟩ := forall₂_mem h g hm
    obtain ⟨k', hk', -, h3⟩ := forall₂_mem h2 k hk
    rw [h3.length_eq]
    exact ((hg g' hg').2 k' hk').1
  · intro g hm k hk t ht
    obtain ⟨g', hg', -, h2⟩ := forall₂_mem h g hm
    obtain ⟨k', hk', -, h3⟩ := forall₂_mem h2 k hk
    obtain ⟨t', ht', h4⟩ := forall₂_mem h3 t ht
    have := values_length h4.values
    rw [List.length_take, List.length_drop] at this
    omega
  · intro g hm k hk
    obtain ⟨g', hg', -, h2⟩ := forall₂_mem h g hm
    obtain ⟨k', hk', hn, h3⟩ := forall₂_mem h2 k hk
    obtain ⟨-, e1, e2⟩ := (hg g' hg').2 k' hk'
    refine ⟨(text_length hn).trans e1, fun t ht => ?_⟩
    obtain ⟨t', ht', h4⟩ := forall₂_mem h3 t ht
    exact (text_length h4.name).trans (e2 t' ht')

/-- C80: for animations, whatever numbers of frames the file declares. -/
theorem C80_anim (F : FloatOps) (bytes : Bytes) (a : Anim) (ha : readAs Anim bytes = .ok a) (hv : ∀ x, a ≠ .V12 x)
    (d : AnimData) (h : AnimData.read F bytes = some (.ok d)) : AnimWithin bytes.length d := by
  have hs := (C58_layout F bytes a ha hv d).mp h
  have he := C51_ssbh bytes _ (C08_foreign_rejected bytes a ha).1
  cases a with
  | V12 a => exact absurd rfl (hv a)
  | V20 a =>
    have he : max _ (max _ (max _ (max _ (max (extent a.groups) (extent a.buffer))))) ≤ bytes.length := he
    rw [bytes_extent] at he
    exact groups_within (by omega) (by omega) hs.2.2.2
  | V21 a =>
    have he : max _ (max _ (max _ (max _ (max (extent a.groups) (max (extent a.buffer) _))))) ≤ bytes.length := he
    rw [bytes_extent] at he
    exact groups_within (by omega) (by omega) hs.2.2.2

example : ∃ bytes a d, readAs Anim bytes = .ok a ∧ (∀ x, a ≠ .V12 x) ∧ AnimData.read Ieee.ops bytes = some (.ok d) ∧
    ∃ g ∈ d.groups, ∃ k ∈ g.nodes, ∃ t ∈ k.tracks, 1 < t.values.len := by
  obtain ⟨bytes, h⟩ : ∃ b, liftWrite (writeAs packedAnim) = .ok b := isOk_iff.mp (by decide +kernel)
  have hr := C01_format_round_trip packedAnim bytes (liftWrite_ok.mp h)
  have hs : ShowsAnim Ieee.ops packedData packedAnim := (ofAnim_iff ..).mp (by decide +kernel)
  have hv : ∀ x, packedAnim ≠ .V12 x := fun x h => by unfold packedAnim at h; cases h
  exact ⟨bytes, packedAnim, packedData, hr, hv, (C58_layout _ bytes _ hr hv _).mpr hs, by decide +kernel⟩

/-! ## Meshes -/

/-- The lengths of all lists of a mesh, for a file of `n` bytes. -/
structure MeshWithin (n : Nat) (d : MeshData) : Prop where
  objects : d.objects.length ≤ n
  /-- At least two bytes for each index. -/
  indices : ∀ o ∈ d.objects, 2 * o.vertex_indices.length ≤ n
  attributes : ∀ o ∈ d.objects, ∀ u, (attributesOf o u).length ≤ n
  vertices : ∀ o ∈ d.objects, ∀ u, ∀ a ∈ attributesOf o u, vectorCount a.data ≤ n
  /-- Groups of influences may share the list of bones. -/
  influences : ∀ o ∈ d.objects, o.bone_influences.length ≤ n * n
  weights : ∀ o ∈ d.objects, ∀ i ∈ o.bone_influences, i.vertex_weights.length ≤ n
  names : ∀ o ∈ d.objects, (textBytes o.name).length ≤ n ∧ (textBytes o.parent_bone_name).length ≤ n ∧
    ∀ i ∈ o.bone_influences, (textBytes i.bone_name).length ≤ n

theorem vectors_length {F : FloatConv} {buffer : Bytes} {start stride count : Nat} {c : Component} {k : Nat} {d : VectorData}
    (h : ShowsVectors F buffer start stride count c k d) : vectorCount d ≤ buffer.length := by
  obtain ⟨h1, -, h3, h4⟩ := h
  rcases Nat.eq_zero_or_pos count with h0 | h0
  · omega
  have hx : ∃ x, vectorComponent d (count - 1) 0 = some x := by
    cases d with
    | Vector2 v =>
      have hl : count - 1 < v.length := by simp only [vectorCount] at h3; omega
      exact ⟨v[count - 1].toList[0]'(by simp), by simp [vectorComponent, List.getElem?_eq_getElem hl]⟩
    | Vector3 v =>
      have hl : count - 1 < v.length := by simp only [vectorCount] at h3; omega
      exact ⟨v[count - 1].toList[0]'(by simp), by simp [vectorComponent, List.getElem?_eq_getElem hl]⟩
    | Vector4 v =>
      have hl : count - 1 < v.length := by simp only [vectorCount] at h3; omega
      exact ⟨v[count - 1].toList[0]'(by simp), by simp [vectorComponent, List.getElem?_eq_getElem hl]⟩
  obtain ⟨x, hx⟩ := hx
  have : start + (count - 1) * stride + 0 * c.bytes < buffer.length := by
    have := h4 _ _ _ hx
    cases c with
    | float => have := NumberAt.lt this (by decide); omega
    | half => obtain ⟨_, this, -⟩ := this; have := NumberAt.lt this (by decide); omega
    | byte => obtain ⟨_, this, -⟩ := this; have := NumberAt.lt this (by decide); omega
  have : count - 1 ≤ (count - 1) * stride := Nat.le_mul_of_pos_right _ (h1 h0)
  omega

theorem indices_length {A : Type} {buffer : Bytes} {o : Mesh.MeshObject A} {is : List UInt32}
    (h : ShowsIndices buffer o is) : 2 * is.length ≤ buffer.length := by
  obtain ⟨-, size, hs, h⟩ := h
  rcases Nat.eq_zero_or_pos is.length with h0 | h0
  · omega
  have := NumberAt.lt (h (is.length - 1) _ (List.getElem?_eq_getElem (by omega)))
  simp only [List.mem_cons, Prod.mk.injEq, List.not_mem_nil, or_false] at hs
  rcases hs with ⟨-, rfl⟩ | ⟨-, rfl⟩
  · have := this (by decide)
    omega
  · have := this (by decide)
    omega

theorem flatMap_length_le {f : α → List β} {n : Nat} : ∀ {l : List α}, (∀ x ∈ l, (f x).length ≤ n) →
    (l.flatMap f).length ≤ l.length * n
  | [], _ => by simp
  | x :: l, h => by
    have h1 := h x (.head _)
    have h2 := flatMap_length_le (l := l) fun y hy => h y (.tail _ hy)
    rw [List.flatMap_cons, List.length_append, List.length_cons, Nat.succ_mul]
    omega

theorem objects_within {A Wt : Type} [Extent A] [Extent Wt] {F : FloatConv} {n : Nat} {describe : A → Described}
    {ShowsWeights : List VertexWeight → Wt → Prop} {m : Mesh.MeshInner A Wt} {d : MeshData} (he : extent m ≤ n)
    (hw : ∀ ws raw, ShowsWeights ws raw → ws.length ≤ extent raw)
    (h : List.Forall₂ (ShowsObject F describe ShowsWeights m) d.objects m.objects) : MeshWithin n d := by
  obtain ⟨e1, e2, e3⟩ := inner_extent m
  have e4 : extent m.rigging_buffers ≤ n := by
    have he' := he
    simp only [show extent m = extent (m.model_name, m.bounding_info, m.unk1, m.objects, m.buffer_sizes,
      m.polygon_index_size, m.vertex_buffers, m.index_buffer, m.rigging_buffers) from rfl, prod_extent] at he'
    omega
  have ho : ∀ o ∈ d.objects, ∃ o' ∈ m.objects, ShowsObject F describe ShowsWeights m o o' := forall₂_mem h
  refine ⟨?_, ?_, ?_, ?_, ?_, ?_, ?_⟩
  · rw [h.length_eq]
    exact (list_extent_le.mp (e1.trans he)).1
  · intro o hm
    obtain ⟨o', -, h'⟩ := ho o hm
    have := indices_length h'.indices
    rw [bytes_extent] at e3
    omega
  · intro o hm u
    obtain ⟨o', hm', h'⟩ := ho o hm
    rw [(h'.attributes u).length_eq]
    refine (List.length_filter_le _ _).trans ?_
    rw [List.length_map]
    have := (list_extent_le.mp (e1.trans he)).2 o' hm'
    exact (list_extent_le.mp ((object_extent o').trans this)).1
  · intro o hm u a ha
    obtain ⟨o', hm', h'⟩ := ho o hm
    obtain ⟨a', -, -, buffer, start, stride, c, k, hb, -, -, hv⟩ := forall₂_mem (h'.attributes u) a ha
    have h1 := vectors_length hv
    have h2 := (list_extent_le.mp (e2.trans he)).2 _ (List.mem_of_getElem? hb)
    rw [bytes_extent] at h2
    omega
  · intro o hm
    obtain ⟨o', hm', h'⟩ := ho o hm
    obtain ⟨own, hsub, -, hf⟩ := h'.influences
    rw [hf.length_eq]
    have h1 : (own.flatMap (·.buffers)).length ≤ own.length * n := by
      refine flatMap_length_le fun g hg => ?_
      have h2 := (list_extent_le.mp e4).2 g (hsub.subset hg)
      have h3 : extent g.buffers ≤ n :=
        (Nat.le_max_right _ _).trans ((Nat.le_max_right _ _).trans ((Nat.le_max_right _ _).trans h2))
      exact (list_extent_le.mp h3).1
    refine h1.trans (Nat.mul_le_mul_right n ?_)
    exact hsub.length_le.trans (list_extent_le.mp e4).1
  · intro o hm i hi
    obtain ⟨o', hm', h'⟩ := ho o hm
    obtain ⟨own, hsub, -, hf⟩ := h'.influences
    obtain ⟨b, hb, -, hws⟩ := forall₂_mem hf i hi
    obtain ⟨g, hg, hbg⟩ := List.mem_flatMap.mp hb
    have h2 := (list_extent_le.mp e4).2 g (hsub.subset hg)
    have h3 : extent g.buffers ≤ n :=
      (Nat.le_max_right _ _).trans ((Nat.le_max_right _ _).trans ((Nat.le_max_right _ _).trans h2))
    have h4 := (list_extent_le.mp h3).2 b hbg
    exact (hw _ _ hws).trans ((Nat.le_max_right _ _).trans h4)
  · intro o hm
    obtain ⟨o', hm', h'⟩ := ho o hm
    have h0 := (list_extent_le.mp (e1.trans he)).2 o' hm'
    have h1 : extent o'.name ≤ n := (Nat.le_max_left _ _).trans h0
    have h2 : extent o'.parent_bone_name ≤ n :=
      (Nat.le_max_left _ _).trans ((Nat.le_max_right _ _).trans ((Nat.le_max_right _ _).trans h0))
    refine ⟨(text_length h'.name).trans h1, (text_length h'.parent_bone_name).trans h2, fun i hi => ?_⟩
    obtain ⟨own, hsub, -, hf⟩ := h'.influences
    obtain ⟨b, hb, ⟨c, hc, hn⟩, -⟩ := forall₂_mem hf i hi
    obtain ⟨g, hg, hbg⟩ := List.mem_flatMap.mp hb
    have h2 := (list_extent_le.mp e4).2 g (hsub.subset hg)
    have h3 : extent g.buffers ≤ n :=
      (Nat.le_max_right _ _).trans ((Nat.le_max_right _ _).trans ((Nat.le_max_right _ _).trans h2))
    have h4 := (list_extent_le.mp h3).2 b hbg
    have h5 : extent b.bone_name ≤ n := (Nat.le_max_left _ _).trans h4
    rw [hc] at h5
    rw [hn]
    exact h5

/-- C80: for meshes, whatever numbers of vertices and indices the file declares. -/
theorem C80_mesh (F : FloatConv) (bytes : Bytes) (d : MeshData) (h : MeshData.read F bytes = .ok d) :
    MeshWithin bytes.length d := by
  cases hm : readAs Mesh bytes with
  | error e => rw [MeshData.read, hm] at h; cases h
  | ok m =>
    have hs := (C57_layout F bytes m hm d).mp h
    have he := C51_ssbh bytes _ (C08_foreign_rejected bytes m hm).1
    have h8 : ∀ ws (raw : List Mesh.VertexWeightV8), ShowsWeightsV8 ws raw → ws.length ≤ extent raw := by
      intro ws raw h
      rw [List.Forall₂.length_eq h]
      exact (list_extent_le.mp (Nat.le_refl _)).1
    have h10 : ∀ ws (raw : Bytes), ShowsWeightsV10 ws raw → ws.length ≤ extent raw := by
      intro ws raw h
      rw [h.1, bytes_extent]
      exact Nat.div_le_self _ _
    cases m with
    | V8 m => exact objects_within (m := m) he h8 hs.2
    | V9 m => exact objects_within (m := m) he h8 hs.2
    | V10 m => exact objects_within (m := m) he h10 hs.2

example : ∃ bytes d, MeshData.read Ieee.conv bytes = .ok d ∧ ∃ o ∈ d.objects, o.vertex_indices.length = 3 := by
  obtain ⟨bytes, h⟩ : ∃ b, liftWrite (writeAs triangleMesh) = .ok b := isOk_iff.mp (by decide +kernel)
  have hr := C01_format_round_trip triangleMesh bytes (liftWrite_ok.mp h)
  have hs : ShowsMesh Ieee.conv triangleData triangleMesh := (ofMesh_iff ..).mp (by decide +kernel)
  exact ⟨bytes, triangleData, (C57_layout _ bytes _ hr _).mpr hs, by decide +kernel⟩

end Verif.Props

/-! ## Other types -/

namespace Verif

/-- The length of a text is counted in bytes. -/
instance : Extent String := ⟨fun s => (textBytes s).length⟩
instance : Extent Bool := ⟨fun _ => 0⟩

instance : Extent ModlData.ModlEntryData :=
  ⟨fun v => extent (v.mesh_object_name, v.mesh_object_subindex, v.material_label)⟩
instance : Extent ModlData :=
  ⟨fun v => extent (v.model_name, v.skeleton_file_name, v.material_file_names, v.animation_file_name, v.mesh_file_name,
    v.entries)⟩

instance : Extent HlpbData.AimConstraintData :=
  ⟨fun v => extent (v.name, v.aim_bone_name1, v.aim_bone_name2, v.aim_type1, v.aim_type2, v.target_bone_name1,
    v.target_bone_name2)⟩
instance : Extent HlpbData.OrientConstraintData :=
  ⟨fun v => extent (v.name, v.parent_bone_name1, v.parent_bone_name2, v.source_bone_name, v.target_bone_name)⟩
instance : Extent HlpbData := ⟨fun v => extent (v.aim_constraints, v.orient_constraints)⟩

instance : Extent MatlData.SamplerData := ⟨fun _ => 0⟩
instance : Extent MatlData.BlendStateData := ⟨fun _ => 0⟩
instance : Extent MatlData.RasterizerStateData := ⟨fun _ => 0⟩
instance [Extent α] : Extent (MatlData.ParamData α) := ⟨fun v => extent v.data⟩
instance : Extent MatlData.MatlEntryData :=
  ⟨fun v => extent (v.material_label, v.shader_label, v.blend_states, v.floats, v.booleans, v.vectors, v.rasterizer_states,
    v.samplers, v.textures, v.uv_transforms)⟩
instance : Extent MatlData := ⟨fun v => extent v.entries⟩

instance : Extent SkelData.BoneData := ⟨fun v => extent v.name⟩
instance : Extent SkelData := ⟨fun v => extent v.bones⟩

instance : Extent MeshExData.EntryFlags := ⟨fun _ => 0⟩
instance : Extent MeshExData.MeshObjectGroupData :=
  ⟨fun v => extent (v.mesh_object_full_name, v.mesh_object_name, v.entry_flags)⟩
instance : Extent MeshExData := ⟨fun v => extent v.mesh_object_groups⟩

instance : Extent AdjEntryData := ⟨fun v => extent v.vertex_adjacency⟩
instance : Extent AdjData := ⟨fun v => extent v.entries⟩

end Verif

namespace Verif.Props
open Verif

theorem lossy_extent (s : SsbhString) : extent (toStringLossy s) ≤ extent s := text_length (isText_lossy s)

theorem map_extent [Extent α] [Extent β] {f : α → β} (h : ∀ x, extent (f x) ≤ extent x) (l : List α) :
    extent (l.map f) ≤ extent l := by
  refine list_extent_le.mpr ⟨?_, ?_⟩
  · rw [List.length_map]
    exact (list_extent_le.mp (Nat.le_refl _)).1
  · intro y hy
    obtain ⟨x, hx, rfl⟩ := List.mem_map.mp hy
    exact (h x).trans ((list_extent_le.mp (Nat.le_refl _)).2 x hx)

theorem filterMap_extent [Extent α] [Extent β] {f : α → Option β} (h : ∀ x y, f x = some y → extent y ≤ extent x) (l : List α) :
    extent (l.filterMap f) ≤ extent l := by
  refine list_extent_le.mpr ⟨?_, ?_⟩
  · exact (List.length_filterMap_le _ _).trans (list_extent_le.mp (Nat.le_refl _)).1
  · intro y hy
    obtain ⟨x, hx, hxy⟩ := List.mem_filterMap.mp hy
    exact (h x y hxy).trans ((list_extent_le.mp (Nat.le_refl _)).2 x hx)

theorem optMap_extent [Extent α] [Extent β] {f : α → β} (h : ∀ x, extent (f x) ≤ extent x) (o : Option α) :
    extent (o.map f) ≤ extent o := by
  cases o with
  | none => exact Nat.le_refl _
  | some x => exact h x

theorem max_mono {a b c d : Nat} (h1 : a ≤ c) (h2 : b ≤ d) : max a b ≤ max c d := by omega

theorem modl_extent (m : Modl) : extent (ModlData.ofModl m) ≤ extent m := by
  cases m with
  | V17 m =>
    refine max_mono (lossy_extent _) (max_mono (lossy_extent _) (max_mono (map_extent lossy_extent _)
      (max_mono (optMap_extent lossy_extent _) (max_mono (lossy_extent _) (map_extent (fun e => ?_) _)))))
    exact max_mono (lossy_extent _) (max_mono (Nat.le_refl _) (lossy_extent _))

theorem hlpb_extent (m : Hlpb) : extent (HlpbData.ofHlpb m) ≤ extent m := by
  cases m with
  | V11 m =>
    have h1 : ∀ a : Hlpb.AimConstraint, extent (HlpbData.AimConstraintData.ofAim a) ≤ extent a := fun a =>
      max_mono (lossy_extent _) <| max_mono (lossy_extent _) <| max_mono (lossy_extent _) <| max_mono (lossy_extent _) <|
        max_mono (lossy_extent _) <| max_mono (lossy_extent _) <| (lossy_extent _).trans (Nat.le_max_left _ _)
    have h2 : ∀ a : Hlpb.OrientConstraint, extent (HlpbData.OrientConstraintData.ofOrient a) ≤ extent a := fun a =>
      max_mono (lossy_extent _) <| max_mono (lossy_extent _) <| max_mono (lossy_extent _) <| max_mono (lossy_extent _) <|
        (lossy_extent _).trans (Nat.le_max_left _ _)
    exact max_mono (map_extent h1 _) ((map_extent h2 _).trans (Nat.le_max_left _ _))

theorem skel_extent (m : Skel) : extent (SkelData.ofSkel m) ≤ extent m := by
  cases m with
  | V10 m =>
    refine list_extent_le.mpr ⟨?_, ?_⟩
    · simp only [SkelData.ofSkel, List.length_map, List.length_zip]
      exact (Nat.min_le_left _ _).trans ((list_extent_le.mp (Nat.le_refl _)).1.trans (Nat.le_max_left _ _))
    · intro y hy
      obtain ⟨⟨e, t⟩, hx, rfl⟩ := List.mem_map.mp hy
      have h1 := (list_extent_le.mp (Nat.le_refl (extent m.bone_entries))).2 e (List.of_mem_zip hx).1
      exact (lossy_extent _).trans ((Nat.le_max_left _ _).trans (h1.trans (Nat.le_max_left _ _)))

theorem getV16_extent [Extent α] {f : Matl.ParamV16 → Option α} (h : ∀ p a, f p = some a → extent a ≤ extent p)
    (l : List Matl.AttributeV16) : extent (MatlData.getV16 f l) ≤ extent l := by
  refine filterMap_extent (fun a y hy => ?_) l
  obtain ⟨v, hv, rfl⟩ := Option.map_eq_some_iff.mp hy
  obtain ⟨p, hp, hv⟩ := Option.bind_eq_some_iff.mp hv
  have : extent a.param = extent p := by rw [hp]; rfl
  exact (h p v hv).trans (this ▸ Nat.le_max_right _ _)

theorem getV15_extent [Extent α] {f : Matl.ParamV15 → Option α} (h : ∀ p a, f p = some a → extent a ≤ extent p)
    (l : List Matl.AttributeV15) : extent (MatlData.getV15 f l) ≤ extent l := by
  refine filterMap_extent (fun a y hy => ?_) l
  obtain ⟨v, hv, rfl⟩ := Option.map_eq_some_iff.mp hy
  obtain ⟨p, hp, hv⟩ := Option.bind_eq_some_iff.mp hv
  have : extent a.param = extent p := by rw [hp]; rfl
  exact (h p v hv).trans (this ▸ Nat.le_max_right _ _)

theorem matl_extent (m : Matl) : extent (MatlData.ofMatl m) ≤ extent m := by
  cases m with
  | V15 m =>
    refine map_extent (fun e => ?_) _
    have ha : extent e.attributes ≤ extent e := (Nat.le_max_left _ _).trans (Nat.le_max_right _ _)
    have h1 : extent e.material_label ≤ extent e := Nat.le_max_left _ _
    have h2 : extent e.shader_label ≤ extent e := (Nat.le_max_right _ _).trans (Nat.le_max_right _ _)
    refine Nat.max_le.mpr ⟨(lossy_extent _).trans h1, Nat.max_le.mpr ⟨(lossy_extent _).trans h2, ?_⟩⟩
    refine Nat.max_le.mpr ⟨(getV15_extent ?_ _).trans ha, Nat.max_le.mpr ⟨(getV15_extent ?_ _).trans ha,
      Nat.max_le.mpr ⟨(getV15_extent ?_ _).trans ha, Nat.max_le.mpr ⟨(getV15_extent ?_ _).trans ha,
      Nat.max_le.mpr ⟨(getV15_extent ?_ _).trans ha, Nat.max_le.mpr ⟨(getV15_extent ?_ _).trans ha,
      Nat.max_le.mpr ⟨(getV15_extent ?_ _).trans ha, (getV15_extent ?_ _).trans ha⟩⟩⟩⟩⟩⟩⟩
    all_goals
      intro p a h
      cases p <;> cases h
      first | exact Nat.zero_le _ | exact lossy_extent _
  | V16 m =>
    refine map_extent (fun e => ?_) _
    have ha : extent e.attributes ≤ extent e := (Nat.le_max_left _ _).trans (Nat.le_max_right _ _)
    have h1 : extent e.material_label ≤ extent e := Nat.le_max_left _ _
    have h2 : extent e.shader_label ≤ extent e := (Nat.le_max_right _ _).trans (Nat.le_max_right _ _)
    refine Nat.max_le.mpr ⟨(lossy_extent _).trans h1, Nat.max_le.mpr ⟨(lossy_extent _).trans h2, ?_⟩⟩
    refine Nat.max_le.mpr ⟨(getV16_extent ?_ _).trans ha, Nat.max_le.mpr ⟨(getV16_extent ?_ _).trans ha,
      Nat.max_le.mpr ⟨(getV16_extent ?_ _).trans ha, Nat.max_le.mpr ⟨(getV16_extent ?_ _).trans ha,
      Nat.max_le.mpr ⟨(getV16_extent ?_ _).trans ha, Nat.max_le.mpr ⟨(getV16_extent ?_ _).trans ha,
      Nat.max_le.mpr ⟨(getV16_extent ?_ _).trans ha, (getV16_extent ?_ _).trans ha⟩⟩⟩⟩⟩⟩⟩
    all_goals
      intro p a h
      cases p <;> cases h
      first | exact Nat.zero_le _ | exact lossy_extent _

theorem opened_extent {α β : Type} [t : SsbhType α] [LawSsbh α] [Extent α] [Extent β] {f : α → β} {bytes : Bytes} {d : β}
    (hs : ∀ a : α, extent (t.inj a) = extent a) (hf : ∀ a, extent (f a) ≤ extent a)
    (h : (liftRead (readAs α bytes)).map f = .ok d) : extent d ≤ bytes.length := by
  cases ha : readAs α bytes with
  | error e => rw [ha] at h; cases h
  | ok a =>
    rw [ha] at h
    cases h
    have := C51_ssbh bytes _ (C08_foreign_rejected bytes a ha).1
    rw [hs] at this
    exact (hf a).trans this

/-- C80: no list and no text of opened models, skeletons, materials and helper bones is longer than the file. -/
theorem C80_ssbh (bytes : Bytes) :
    (∀ d, ModlData.read bytes = .ok d → extent d ≤ bytes.length) ∧
    (∀ d, SkelData.read bytes = .ok d → extent d ≤ bytes.length) ∧
    (∀ d, MatlData.read bytes = .ok d → extent d ≤ bytes.length) ∧
    (∀ d, HlpbData.read bytes = .ok d → extent d ≤ bytes.length) :=
  ⟨fun _ h => opened_extent (fun _ => rfl) modl_extent h, fun _ h => opened_extent (fun _ => rfl) skel_extent h,
    fun _ h => opened_extent (fun _ => rfl) matl_extent h, fun _ h => opened_extent (fun _ => rfl) hlpb_extent h⟩

theorem nameText_extent (p : Option CStr) : extent (MeshExData.nameText p) ≤ extent p := by
  have := lossy_extent p
  cases p <;> exact this

/-- C80: the same for MeshEx files. -/
theorem C80_meshex (bytes : Bytes) (d : MeshExData) (h : MeshExData.read bytes = .ok d) : extent d ≤ bytes.length := by
  cases hm : MeshEx.read bytes with
  | error e => rw [MeshExData.read, hm] at h; cases h
  | ok m =>
    rw [MeshExData.read, hm] at h
    cases h
    have he := C51_meshex bytes m hm
    have hg : extent (m.mesh_object_groups.getD []) ≤ extent m.mesh_object_groups := by
      cases m.mesh_object_groups <;> exact Nat.le_refl _
    have hn : extent (m.entries.getD []) ≤ extent m.entries := by
      cases m.entries <;> exact Nat.le_refl _
    have h1 : extent m.mesh_object_groups ≤ bytes.length := ((Nat.le_max_left _ _).trans (Nat.le_max_right _ _)).trans he
    have h2 : extent m.entries ≤ bytes.length :=
      ((Nat.le_max_left _ _).trans ((Nat.le_max_right _ _).trans (Nat.le_max_right _ _))).trans he
    refine list_extent_le.mpr ⟨?_, ?_⟩
    · simp only [MeshExData.ofMeshEx, List.length_map, List.length_zipIdx]
      exact (list_extent_le.mp (hg.trans h1)).1
    · intro y hy
      obtain ⟨⟨g, i⟩, hx, rfl⟩ := List.mem_map.mp hy
      have hgm := (list_extent_le.mp (hg.trans h1)).2 g (by
        have := List.mem_zipIdx hx
        simp only [Nat.zero_add] at this
        rw [this.2.2]
        exact List.getElem_mem _)
      refine Nat.max_le.mpr ⟨(nameText_extent _).trans (((Nat.le_max_left _ _).trans (Nat.le_max_right _ _)).trans hgm),
        Nat.max_le.mpr ⟨(nameText_extent _).trans (((Nat.le_max_right _ _).trans (Nat.le_max_right _ _)).trans hgm), ?_⟩⟩
      refine list_extent_le.mpr ⟨?_, fun _ _ => Nat.zero_le _⟩
      refine (List.length_filterMap_le _ _).trans ?_
      rw [MeshExData.positions, List.length_map]
      refine (List.length_filter_le _ _).trans ?_
      rw [List.length_zipIdx]
      exact (list_extent_le.mp (hn.trans h2)).1

theorem readEntries_within {buf : List Int16} : ∀ {es : List Adj.AdjEntry} {ds : List AdjEntryData},
    AdjData.readEntries buf es = .ok ds → ds.length = es.length ∧ ∀ d ∈ ds, d.vertex_adjacency.length ≤ buf.length
  | [], ds, h => by cases h; simp
  | [e], ds, h => by
    simp only [AdjData.readEntries, AdjData.sliceGetFrom] at h
    split at h
    · rename_i vs hv
      cases h
      split at hv
      · cases hv
        simp
      · cases hv
    · cases h
  | e :: e' :: es, ds, h => by
    simp only [AdjData.readEntries] at h
    split at h
    · cases h
    · rename_i vs hv
      split at h
      · cases h
      · rename_i rest hr
        cases h
        have ih := readEntries_within hr
        simp only [List.length_cons, ih.1, List.mem_cons, forall_eq_or_imp, true_and]
        refine ⟨?_, ih.2⟩
        simp only [AdjData.sliceGet] at hv
        split at hv
        · cases hv
          simp only [List.length_take, List.length_drop]
          omega
        · cases hv

/-- C80: the same for Adj files. -/
theorem C80_adj (bytes : Bytes) (d : AdjData) (h : AdjData.read bytes = .ok d) : extent d ≤ bytes.length := by
  cases hm : Adj.read bytes with
  | error e => rw [AdjData.read, hm] at h; cases h
  | ok a =>
    rw [AdjData.read, hm] at h
    simp only [liftRead, AdjData.ofAdj] at h
    cases hr : AdjData.readEntries a.index_buffer a.entries with
    | error e => rw [hr] at h; cases h
    | ok es =>
      rw [hr] at h
      cases h
      have he := C51_adj bytes a hm
      have h1 := (list_extent_le.mp ((Nat.le_max_left _ _).trans he)).1
      have h2 := (list_extent_le.mp ((Nat.le_max_right _ _).trans he)).1
      obtain ⟨h3, h4⟩ := readEntries_within hr
      refine list_extent_le.mpr ⟨h3.trans_le h1, fun x hx => ?_⟩
      exact list_extent_le.mpr ⟨(h4 x hx).trans h2, fun _ _ => Nat.zero_le _⟩

/-- A file with entries for each of the other types. -/
example : (∃ b d, MatlData.read b = .ok d ∧ d.entries.length = 1) ∧ (∃ b d, AdjData.read b = .ok d ∧ d.entries.length = 1) ∧
    ∃ b d, MeshExData.read b = .ok d ∧ d.mesh_object_groups.length = 1 := by
  refine ⟨?_, ?_, ?_⟩
  · obtain ⟨b, h⟩ : ∃ b, (⟨1, 6, [⟨"a", "b", [], [], [], [], [], [], [], []⟩]⟩ : MatlData).write = .ok b :=
      isOk_iff.mp (by decide +kernel)
    exact ⟨b, _, (C45_matl _ _ h).2, rfl⟩
  · exact ⟨[1, 0, 0, 0, 5, 0, 0, 0, 0, 0, 0, 0, 7, 0], ⟨[⟨5, [7]⟩]⟩, rfl, rfl⟩
  · obtain ⟨b, h⟩ : ∃ b, (⟨[⟨⟨⟨0, 0, 0⟩, 0⟩, "a", "b", [⟨true, false⟩]⟩]⟩ : MeshExData).write (fun _ => ⟨⟨0, 0, 0⟩, 0⟩) = .ok b :=
      isOk_iff.mp (by decide +kernel)
    exact ⟨b, _, C45_meshex _ _ _ h (by decide) (by decide), rfl⟩

end Verif.Props
