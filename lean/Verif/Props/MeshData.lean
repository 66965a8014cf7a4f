import Verif.Data.MeshRoundTrip
/-!
# Mesh data

C39: vertex attributes. C40: rejected meshes. C41: indices. C42: rigging. C43: influence counts. C44: transforms.
C48: whole meshes. C49: order of rigging groups. C50: saving again.
-/

namespace Verif
namespace Props
open MeshData

/-! ## What a file keeps of a mesh -/

/-- How a component is stored. -/
inductive Precision where
  | single
  | half
  | byte

/-- The format of the components of an attribute with 2, 3 or 4 components. -/
def precision (minor : UInt16) (usage : AttributeUsage) (components : Nat) : Precision :=
  match usage, components with
  | .Position, _ => .single
  | _, 3 => .single
  | _, 2 => if minor = 10 then .half else .single
  | .ColorSet, _ => .byte
  | _, _ => .half

/-- A component after storing it. -/
def Precision.round (F : FloatConv) (x : F32) : Precision → F32
  | .single => x
  | .half => F.ofHalf (F.toHalf x)
  | .byte => F.ofByte (F.toByte x)

/-- The same vectors with every component changed. -/
def mapComponents (f : Nat → F32 → F32) : VectorData → VectorData
  | .Vector2 v => .Vector2 (v.map (·.map (f 2)))
  | .Vector3 v => .Vector3 (v.map (·.map (f 3)))
  | .Vector4 v => .Vector4 (v.map (·.map (f 4)))

/-- Names which are made up for version 1.8. -/
def numberedName (usage : AttributeUsage) (i : Nat) : String :=
  (match usage with
  | .Position => "Position"
  | .Normal => "Normal"
  | .Binormal => "Binormal"
  | .Tangent => "Tangent"
  | .TextureCoordinate => "TextureCoordinate"
  | .ColorSet => "colorSet") ++ toString i

/-- The attributes of one usage after storing them: the number and order of the attributes and vectors is kept, names
are cut at the first NUL. Version 1.8 has no names and no binormals. -/
def stored (F : FloatConv) (minor : UInt16) (usage : AttributeUsage) (l : List AttributeData) : List AttributeData :=
  if minor = 8 ∧ usage = .Binormal then []
  else l.zipIdx.map fun (a, i) => {
    name := if minor = 8 then numberedName usage i else cutNul a.name
    data := mapComponents (fun n x => (precision minor usage n).round F x) a.data }

/-- The attributes of a usage. -/
def attributesOf (o : MeshObjectData) : AttributeUsage → List AttributeData
  | .Position => o.positions
  | .Normal => o.normals
  | .Binormal => o.binormals
  | .Tangent => o.tangents
  | .TextureCoordinate => o.texture_coordinates
  | .ColorSet => o.color_sets

def usages : List AttributeUsage := [.Position, .Normal, .Binormal, .Tangent, .TextureCoordinate, .ColorSet]

/-- All attributes. -/
def allAttributes (o : MeshObjectData) : List AttributeData := usages.flatMap (attributesOf o)

/-- An object after storing it. -/
def storedObject (F : FloatConv) (minor : UInt16) (o : MeshObjectData) : MeshObjectData where
  name := cutNul o.name
  subindex := o.subindex
  parent_bone_name := cutNul o.parent_bone_name
  sort_bias := o.sort_bias
  disable_depth_write := o.disable_depth_write
  disable_depth_test := o.disable_depth_test
  vertex_indices := o.vertex_indices
  positions := stored F minor .Position o.positions
  normals := stored F minor .Normal o.normals
  binormals := stored F minor .Binormal o.binormals
  tangents := stored F minor .Tangent o.tangents
  texture_coordinates := stored F minor .TextureCoordinate o.texture_coordinates
  color_sets := stored F minor .ColorSet o.color_sets
  bone_influences := o.bone_influences.map fun i => { i with bone_name := cutNul i.bone_name }

/-- All buffers of the mesh are shorter than 4 GiB. -/
def Small : Mesh → Prop
  | .V8 m => (∀ b ∈ m.vertex_buffers, b.length < 2 ^ 32) ∧ m.index_buffer.length < 2 ^ 32
  | .V9 m => (∀ b ∈ m.vertex_buffers, b.length < 2 ^ 32) ∧ m.index_buffer.length < 2 ^ 32
  | .V10 m => (∀ b ∈ m.vertex_buffers, b.length < 2 ^ 32) ∧ m.index_buffer.length < 2 ^ 32

/-- No object has 2^32 attributes. Only needed for version 1.8, where attributes are named by their number. -/
def FewAttributes (d : MeshData) : Prop :=
  d.minor_version = 8 → ∀ o ∈ d.objects, ∀ u, u ≠ .Binormal → (attributesOf o u).length ≤ 2 ^ 32

/-! ### From the layout to the description above -/

theorem decode_positionsV10 (F : FloatConv) (d : VectorData) :
    (VectorDataV10.fromPositions d).decode F = mapComponents (fun n x => (precision 10 .Position n).round F x) d := by
  cases d <;> simp [VectorDataV10.fromPositions, VectorDataV10.decode, mapComponents, precision, Precision.round]

theorem decode_vectorsV10 (F : FloatConv) (u : AttributeUsage) (h1 : u ≠ .Position) (h2 : u ≠ .ColorSet) (d : VectorData) :
    (VectorDataV10.fromVectors F d).decode F = mapComponents (fun n x => (precision 10 u n).round F x) d := by
  cases u <;> first | exact absurd rfl h1 | exact absurd rfl h2 |
    (cases d <;> simp [VectorDataV10.fromVectors, VectorDataV10.decode, mapComponents, precision, Precision.round,
      Function.comp_def])

theorem decode_colorsV10 (F : FloatConv) (d : VectorData) :
    (VectorDataV10.fromColors F d).decode F = mapComponents (fun n x => (precision 10 .ColorSet n).round F x) d := by
  cases d <;> simp [VectorDataV10.fromColors, VectorDataV10.decode, mapComponents, precision, Precision.round,
    Function.comp_def]

theorem decode_positionsV8 (F : FloatConv) (minor : UInt16) (d : VectorData) :
    (VectorDataV8.fromPositions d).toV10.decode F =
      mapComponents (fun n x => (precision minor .Position n).round F x) d := by
  cases d <;> simp [VectorDataV8.fromPositions, VectorDataV8.toV10, VectorDataV10.decode, mapComponents, precision,
    Precision.round]

theorem decode_vectorsV8 (F : FloatConv) (minor : UInt16) (h : minor ≠ 10) (u : AttributeUsage) (h1 : u ≠ .Position)
    (h2 : u ≠ .ColorSet) (d : VectorData) :
    (VectorDataV8.fromVectors F d).toV10.decode F = mapComponents (fun n x => (precision minor u n).round F x) d := by
  cases u <;> first | exact absurd rfl h1 | exact absurd rfl h2 |
    (cases d <;> simp [VectorDataV8.fromVectors, VectorDataV8.toV10, VectorDataV10.decode, mapComponents, precision,
      Precision.round, Function.comp_def, h])

theorem decode_colorsV8 (F : FloatConv) (minor : UInt16) (h : minor ≠ 10) (d : VectorData) :
    (VectorDataV8.fromColors F d).toV10.decode F =
      mapComponents (fun n x => (precision minor .ColorSet n).round F x) d := by
  cases d <;> simp [VectorDataV8.fromColors, VectorDataV8.toV10, VectorDataV10.decode, mapComponents, precision,
    Precision.round, Function.comp_def, h]

theorem readBack_V10 (F : FloatConv) (o : MeshObjectData) (u : AttributeUsage) :
    readBack F (readItems F 10 o) u = stored F 10 u (attributesOf o u) := by
  have h10 : ¬ (10 : UInt16) = 8 := by decide
  simp only [readItems, if_true, items0V10, items1V10, readBack_append, readBack_itemsOf]
  cases u <;> simp [stored, attributesOf, h10, decode_positionsV10, decode_colorsV10]
  all_goals exact fun a _ _ => decode_vectorsV10 F _ (by decide) (by decide) a.data

theorem readBack_V9 (F : FloatConv) (o : MeshObjectData) (u : AttributeUsage) :
    readBack F (readItems F 9 o) u = stored F 9 u (attributesOf o u) := by
  have h1 : ¬ (9 : UInt16) = 8 := by decide
  have h2 : ¬ (9 : UInt16) = 10 := by decide
  simp only [readItems, h1, h2, if_false, items0V9, items1V9, readBack_append, readBack_itemsOf]
  cases u <;> simp [stored, attributesOf, h1, decode_positionsV8 F 9, decode_colorsV8 F 9 h2]
  all_goals exact fun a _ _ => decode_vectorsV8 F 9 h2 _ (by decide) (by decide) a.data

theorem zipIdx_congr {l : List α} {f g : α × Nat → β} (h : ∀ x i, i < l.length → f (x, i) = g (x, i)) :
    l.zipIdx.map f = l.zipIdx.map g := by
  apply List.map_congr_left
  rintro ⟨x, i⟩ hx
  exact h x i (List.snd_lt_of_mem_zipIdx hx)

theorem readBack_V8 (F : FloatConv) (o : MeshObjectData) (u : AttributeUsage) (hf : u ≠ .Binormal → (attributesOf o u).length ≤ 2 ^ 32) :
    readBack F (readItems F 8 o) u = stored F 8 u (attributesOf o u) := by
  have h2 : ¬ (8 : UInt16) = 10 := by decide
  simp only [readItems, h2, if_false, if_true, items0V8, items1V8, readBack_append, readBack_itemsOf]
  cases u <;> simp only [attributesOf] at hf <;>
    simp [stored, attributesOf, decode_positionsV8 F 8, decode_colorsV8 F 8 h2]
  all_goals
    intro a i hi
    have := List.snd_lt_of_mem_zipIdx hi
    rw [Nat.mod_eq_of_lt (by simpa using Nat.lt_of_lt_of_le this (hf (by decide)))]
    first
    | rfl
    | exact ⟨rfl, decode_vectorsV8 F 8 h2 _ (by decide) (by decide) a.data⟩

theorem small_iff {m : Mesh} : Small m ↔ (∀ b ∈ vertexBuffers m, b.length < 2 ^ 32) ∧ (indexBuffer m).length < 2 ^ 32 := by
  cases m <;> rfl

/-- What is read of a created mesh. -/
theorem mesh_read {F : FloatConv} {bounds : List (Vector F32 3) → Mesh.BoundingInfo} {d : MeshData} {m : Mesh}
    (h : toMesh F bounds d = .ok m) (hs : Small m) (hf : FewAttributes d) :
    ofMesh F m = .ok { d with objects := d.objects.map fun o =>
      { storedObject F d.minor_version o with
        bone_influences := (d.objects.filter fun p => cutNul p.name = cutNul o.name ∧ p.subindex = o.subindex).flatMap
          fun p => p.bone_influences.map fun i => { i with bone_name := cutNul i.bone_name } } } := by
  obtain ⟨hb, hi⟩ := small_iff.mp hs
  obtain ⟨-, -, hv, hm, -⟩ := toMesh_isOk.mp ⟨m, h⟩
  rw [ofMesh_toMesh h hb hi]
  congr 2
  apply List.map_congr_left
  intro o ho
  have hr : ∀ u, readBack F (readItems F d.minor_version o) u = stored F d.minor_version u (attributesOf o u) := by
    intro u
    rcases hm with e | e | e
    · have := hf e o ho u
      rw [e]; exact readBack_V8 F o u this
    · rw [e]; exact readBack_V9 F o u
    · rw [e]; exact readBack_V10 F o u
  simp only [readObject, hr, storedObject, attributesOf]
  rfl

/-! ## C48: whole meshes -/

/-- A mesh which is converted to the file format and back is the same, apart from the precision of the components,
text after a NUL character, and binormals and attribute names in version 1.8. -/
theorem C48_round_trip (F : FloatConv) (bounds : List (Vector F32 3) → Mesh.BoundingInfo) (d : MeshData) (m : Mesh)
    (h : toMesh F bounds d = .ok m) (hs : Small m) (hf : FewAttributes d)
    (hn : d.objects.Pairwise fun a b => ¬ (cutNul a.name = cutNul b.name ∧ a.subindex = b.subindex)) :
    ofMesh F m = .ok { d with objects := d.objects.map (storedObject F d.minor_version) } := by
  rw [mesh_read h hs hf]
  congr 2
  apply List.map_congr_left
  intro o ho
  rw [filter_unique hn ho]
  simp [storedObject]

/-- Without NUL characters in the names of objects the last condition is not needed. -/
theorem C48_nul_free (F : FloatConv) (bounds : List (Vector F32 3) → Mesh.BoundingInfo) (d : MeshData) (m : Mesh)
    (h : toMesh F bounds d = .ok m) (hs : Small m) (hf : FewAttributes d)
    (hn : ∀ o ∈ d.objects, '\x00' ∉ o.name.toList) :
    ofMesh F m = .ok { d with objects := d.objects.map (storedObject F d.minor_version) } := by
  refine C48_round_trip F bounds d m h hs hf ?_
  refine (toMesh_isOk.mp ⟨m, h⟩).1.imp_of_mem ?_
  intro a b ha hb hab
  rwa [cutNul_of_not_mem (hn a ha), cutNul_of_not_mem (hn b hb)]

/-! ## C39: attributes -/

/-- Every attribute of every object comes back in the stored precision, however many objects and attributes share the
buffers. -/
theorem C39_attributes (F : FloatConv) (bounds : List (Vector F32 3) → Mesh.BoundingInfo) (d : MeshData) (m : Mesh)
    (h : toMesh F bounds d = .ok m) (hs : Small m) (hf : FewAttributes d) :
    ∃ d', ofMesh F m = .ok d' ∧ d'.objects.length = d.objects.length ∧
      ∀ (k : Nat) o, d.objects[k]? = some o → ∃ o', d'.objects[k]? = some o' ∧
        ∀ u, attributesOf o' u = stored F d.minor_version u (attributesOf o u) := by
  refine ⟨_, mesh_read h hs hf, by simp, ?_⟩
  intro k o ho
  refine ⟨_, by simp only [List.getElem?_map, ho, Option.map_some]; rfl, ?_⟩
  intro u
  cases u <;> rfl

/-- The same attributes, vectors and components: only the values of components can differ, and those of positions do
not. -/
theorem C39_shape (F : FloatConv) (minor : UInt16) (u : AttributeUsage) (l : List AttributeData)
    (h : ¬ (minor = 8 ∧ u = .Binormal)) :
    (stored F minor u l).length = l.length ∧
    ∀ (i : Nat) a, l[i]? = some a → ∃ a', (stored F minor u l)[i]? = some a' ∧
      a'.data.len = a.data.len ∧ (minor ≠ 8 → '\x00' ∉ a.name.toList → a'.name = a.name) ∧
      (u = .Position → a'.data = a.data) := by
  rw [stored, if_neg h]
  refine ⟨by simp, ?_⟩
  intro i a ha
  refine ⟨_, by simp only [List.getElem?_map, List.getElem?_zipIdx, ha, Option.map_some]; rfl, ?_, ?_, ?_⟩
  · cases a.data <;> simp [mapComponents, VectorData.len]
  · intro h8 hn
    simp [h8, cutNul_of_not_mem hn]
  · rintro rfl
    cases a.data <;> simp [mapComponents, precision, Precision.round]

/-! ## C40: rejected meshes -/

/-- The conditions on an object: complete triangles, attributes of the same length, and indices of vertices. -/
def Valid (o : MeshObjectData) : Prop :=
  o.vertex_indices.length % 3 = 0 ∧
  (∀ a ∈ allAttributes o, ∀ b ∈ allAttributes o, a.data.len = b.data.len) ∧
  ∀ i ∈ o.vertex_indices, ∃ a ∈ allAttributes o, i.toNat < a.data.len

theorem lengths_eq (o : MeshObjectData) : o.lengths = (allAttributes o).map fun a => a.data.len := by
  simp [MeshObjectData.lengths, allAttributes, usages, attributesOf]

theorem checked_iff (o : MeshObjectData) : Checked o ↔ Valid o := by
  simp only [Checked, Valid, vertexCount_ok, lengths_eq, List.mem_map, List.map_eq_nil_iff, forall_exists_index, and_imp,
    forall_apply_eq_imp_iff₂]
  refine and_congr_right fun _ => ?_
  constructor
  · rintro ⟨n, ⟨h1, h2⟩, h3⟩
    refine ⟨fun a ha b hb => (h1 a ha).trans (h1 b hb).symm, ?_⟩
    intro i hi
    cases hl : allAttributes o with
    | nil =>
      have := h3 i hi
      rw [h2 hl] at this
      omega
    | cons a as =>
      refine ⟨a, by simp, ?_⟩
      rw [h1 a (by simp [hl])]
      exact h3 i hi
  · rintro ⟨h1, h2⟩
    cases hl : allAttributes o with
    | nil =>
      refine ⟨0, ⟨by simp, fun _ => rfl⟩, ?_⟩
      intro i hi
      obtain ⟨a, ha, -⟩ := h2 i hi
      simp [hl] at ha
    | cons a as =>
      refine ⟨a.data.len, ⟨?_, by simp⟩, ?_⟩
      · intro b hb
        exact h1 b (by rw [hl]; exact hb) a (by simp [hl])
      · intro i hi
        obtain ⟨b, hb, hlt⟩ := h2 i hi
        rw [← h1 b hb a (by simp [hl])]
        exact hlt

/-- Exactly the meshes with these properties can be created. -/
theorem C40_created_iff (F : FloatConv) (bounds : List (Vector F32 3) → Mesh.BoundingInfo) (d : MeshData) :
    (∃ m, toMesh F bounds d = .ok m) ↔
      d.objects.Pairwise (fun a b => ¬ (a.name = b.name ∧ a.subindex = b.subindex)) ∧
      (∀ o ∈ d.objects, Valid o) ∧
      d.major_version = 1 ∧ (d.minor_version = 8 ∨ d.minor_version = 9 ∨ d.minor_version = 10) ∧
      (d.minor_version = 10 → ∀ o ∈ d.objects, ∀ i ∈ o.bone_influences, ∀ w ∈ i.vertex_weights,
        w.vertex_index.toNat < 2 ^ 16) := by
  rw [toMesh_isOk]
  simp only [checked_iff]

/-- One object is rejected with an error which names the problem. -/
theorem C40_object {A : Type} (bounds : List (Vector F32 3) → Mesh.BoundingInfo) (ca : MeshObjectData → MeshAttributes A)
    (o : MeshObjectData) (s : BufferState) (h : ¬ Valid o) :
    ∃ e, createMeshObject bounds ca o s = .error e ∧
      ((o.vertex_indices.length % 3 ≠ 0 ∧ e = .nonTriangulatedFaces o.vertex_indices.length) ∨
       ((∃ a ∈ allAttributes o, ∃ b ∈ allAttributes o, a.data.len ≠ b.data.len) ∧ e = .attributeDataLengthMismatch) ∨
       (∃ i ∈ o.vertex_indices, ∃ n, (∀ a ∈ allAttributes o, a.data.len = n) ∧ n ≤ i.toNat ∧
        e = .vertexIndexOutOfRange i.toNat n)) := by
  rw [← checked_iff] at h
  cases hc : createMeshObject bounds ca o s with
  | ok r => exact absurd (createMeshObject_isOk.mp ⟨r, hc⟩) h
  | error e =>
    refine ⟨e, rfl, ?_⟩
    rcases createMeshObject_error hc with h1 | ⟨h1, h2⟩ | ⟨n, hn, i, hi, hle, he⟩
    · exact .inl h1
    · refine .inr (.inl ⟨?_, h2⟩)
      refine Classical.byContradiction fun hno => ?_
      have hall : ∀ a ∈ allAttributes o, ∀ b ∈ allAttributes o, a.data.len = b.data.len := by
        intro a ha b hb
        refine Classical.byContradiction fun hne => ?_
        exact hno ⟨a, ha, b, hb, hne⟩
      have : ∃ n, o.vertexCount = .ok n := by
        cases hl : allAttributes o with
        | nil => exact ⟨0, vertexCount_ok.mpr (by simp [lengths_eq, hl])⟩
        | cons a as =>
          refine ⟨a.data.len, vertexCount_ok.mpr ⟨?_, by simp [lengths_eq, hl]⟩⟩
          intro l hlm
          rw [lengths_eq, List.mem_map] at hlm
          obtain ⟨b, hb, rfl⟩ := hlm
          exact hall b hb a (by simp [hl])
      obtain ⟨n, hn⟩ := this
      rw [h1] at hn
      cases hn
    · refine .inr (.inr ⟨i, hi, n, ?_, hle, he⟩)
      intro a ha
      exact (vertexCount_ok.mp hn).1 _ (by rw [lengths_eq]; exact List.mem_map.mpr ⟨a, ha, rfl⟩)

/-- Every mesh which is created has complete triangles and only indices of vertices, also after reading it. -/
theorem C40_in_range (F : FloatConv) (bounds : List (Vector F32 3) → Mesh.BoundingInfo) (d : MeshData) (m : Mesh)
    (h : toMesh F bounds d = .ok m) (hs : Small m) (hf : FewAttributes d) :
    ∃ d', ofMesh F m = .ok d' ∧ ∀ o ∈ d'.objects, o.vertex_indices.length % 3 = 0 ∧
      ∀ i ∈ o.vertex_indices, ∀ a ∈ allAttributes o, i.toNat < a.data.len := by
  refine ⟨_, mesh_read h hs hf, ?_⟩
  intro o' ho'
  simp only [List.mem_map] at ho'
  obtain ⟨o, ho, rfl⟩ := ho'
  have hval := ((C40_created_iff F bounds d).mp ⟨m, h⟩).2.1 o ho
  refine ⟨hval.1, ?_⟩
  intro i hi a ha
  obtain ⟨b, hb, hlt⟩ := hval.2.2 i hi
  -- the length of a stored attribute is the length of an attribute of the object
  have : ∃ c ∈ allAttributes o, a.data.len = c.data.len := by
    simp only [allAttributes, List.mem_flatMap] at ha
    obtain ⟨u, hu, ha⟩ := ha
    have hst : a ∈ stored F d.minor_version u (attributesOf o u) := by cases u <;> exact ha
    rw [stored] at hst
    split at hst
    · cases hst
    · simp only [List.mem_map] at hst
      obtain ⟨⟨c, j⟩, hc, rfl⟩ := hst
      refine ⟨c, List.mem_flatMap.mpr ⟨u, hu, List.fst_mem_of_mem_zipIdx hc⟩, ?_⟩
      cases c.data <;> simp [mapComponents, VectorData.len]
  obtain ⟨c, hc, e⟩ := this
  rw [e, hval.2.1 c hc b hb]
  exact hlt

/-! ## C41: indices -/

/-- Whether the indices of each object are stored with 16 bits. -/
def shortIndices : Mesh → List Bool
  | .V8 m => m.objects.map fun o => o.draw_element_type = .UnsignedShort
  | .V9 m => m.objects.map fun o => o.draw_element_type = .UnsignedShort
  | .V10 m => m.objects.map fun o => o.draw_element_type = .UnsignedShort

theorem C41_round_trip (F : FloatConv) (bounds : List (Vector F32 3) → Mesh.BoundingInfo) (d : MeshData) (m : Mesh)
    (h : toMesh F bounds d = .ok m) (hs : Small m) :
    ∃ d', ofMesh F m = .ok d' ∧ d'.objects.map (·.vertex_indices) = d.objects.map (·.vertex_indices) := by
  obtain ⟨hb, hi⟩ := small_iff.mp hs
  refine ⟨_, ofMesh_toMesh h hb hi, ?_⟩
  simp [readObject, Function.comp_def]

theorem shortIndices_from {A : Type} {bounds : List (Vector F32 3) → Mesh.BoundingInfo} {ca : MeshObjectData → MeshAttributes A} :
    ∀ {objects : List MeshObjectData} {s t : BufferState} {os : List (Mesh.MeshObject A)},
    createMeshObjectsFrom bounds ca objects s = .ok (os, t) →
    os.map (fun o => decide (o.draw_element_type = .UnsignedShort)) =
      objects.map fun o => decide (∀ i ∈ o.vertex_indices, i.toNat < 2 ^ 16)
  | [], s, t, os, h => by cases h; rfl
  | data :: rest, s, t, os, h => by
    simp only [createMeshObjectsFrom] at h
    split at h
    · cases h
    rename_i o s1 ho
    split at h
    · cases h
    rename_i os2 s2 hos
    cases h
    obtain ⟨-, n, -, -, -, -, -, -, -, -, -, -, -, hdt, -⟩ := createMeshObject_ok ho
    simp only [List.map_cons, shortIndices_from hos, List.cons.injEq, and_true]
    have hboth : o.draw_element_type = .UnsignedShort ↔ ∀ i ∈ data.vertex_indices, i.toNat < 2 ^ 16 := by
      rw [hdt, convertIndices]
      split
      · rename_i v hv
        split at hv
        · cases hv
        · rename_i h16
          obtain ⟨i, hi, hle⟩ := toU16s_none.mp h16
          constructor
          · intro h; exact absurd h (by decide)
          · intro hall; have := hall i hi; omega
      · rename_i v hv
        split at hv
        · rename_i h16
          exact ⟨fun _ => (toU16s_some h16).2, fun _ => rfl⟩
        · cases hv
    simp only [hboth]

/-- 16 bit indices are used exactly if all indices of the object fit. -/
theorem C41_width (F : FloatConv) (bounds : List (Vector F32 3) → Mesh.BoundingInfo) (d : MeshData) (m : Mesh)
    (h : toMesh F bounds d = .ok m) :
    shortIndices m = d.objects.map fun o => decide (∀ i ∈ o.vertex_indices, i.toNat < 2 ^ 16) := by
  have key : ∀ {A Wt : Type} [Weight Wt] {ca : MeshObjectData → MeshAttributes A} {v : MeshVertexData A}
      {b : Mesh.BoundingInfo} {mi : Mesh.MeshInner A Wt}, createMeshObjects bounds ca d.objects = .ok v →
      createMeshInner b v d = .ok mi → mi.objects.map (fun o => decide (o.draw_element_type = .UnsignedShort)) =
        d.objects.map fun o => decide (∀ i ∈ o.vertex_indices, i.toNat < 2 ^ 16) := by
    intro A Wt _ ca v b mi hv hm
    simp only [createMeshInner] at hm
    split at hm
    · cases hm
    cases hm
    simp only [createMeshObjects] at hv
    split at hv
    · cases hv
    rename_i os s hos
    cases hv
    exact shortIndices_from hos
  simp only [toMesh] at h
  split at h
  · cases h
  split at h
  · split at h
    · cases h
    rename_i v hv
    obtain ⟨mi, hin, rfl⟩ := except_map_ok h
    exact key hv hin
  split at h
  · split at h
    · cases h
    rename_i v hv
    obtain ⟨mi, hin, rfl⟩ := except_map_ok h
    exact key hv hin
  split at h
  · split at h
    · cases h
    rename_i v hv
    obtain ⟨mi, hin, rfl⟩ := except_map_ok h
    exact key hv hin
  · cases h

/-! ## C42: rigging -/

/-- Objects with different names get back exactly their own influences, in order. -/
theorem C42_round_trip (F : FloatConv) (bounds : List (Vector F32 3) → Mesh.BoundingInfo) (d : MeshData) (m : Mesh)
    (h : toMesh F bounds d = .ok m) (hs : Small m) (hn : ∀ o ∈ d.objects, '\x00' ∉ o.name.toList) :
    ∃ d', ofMesh F m = .ok d' ∧ d'.objects.map (·.bone_influences) =
      d.objects.map fun o => o.bone_influences.map fun i => { i with bone_name := cutNul i.bone_name } := by
  obtain ⟨hb, hi⟩ := small_iff.mp hs
  refine ⟨_, ofMesh_toMesh h hb hi, ?_⟩
  simp only [List.map_map]
  apply List.map_congr_left
  intro o ho
  have hp := (toMesh_isOk.mp ⟨m, h⟩).1.imp_of_mem (S := fun a b => ¬ (cutNul a.name = cutNul b.name ∧ a.subindex = b.subindex))
    (fun {a b} ha hb hab => by rwa [cutNul_of_not_mem (hn a ha), cutNul_of_not_mem (hn b hb)])
  simp only [Function.comp, readObject, filter_unique hp ho, List.flatMap_cons, List.flatMap_nil, List.append_nil]
  rfl

/-- Objects whose names only differ after a NUL character share their influences. -/
theorem C42_shared (F : FloatConv) (bounds : List (Vector F32 3) → Mesh.BoundingInfo) (d : MeshData) (m : Mesh)
    (h : toMesh F bounds d = .ok m) (hs : Small m) :
    ∃ d', ofMesh F m = .ok d' ∧ d'.objects.map (·.bone_influences) =
      d.objects.map fun o =>
        (d.objects.filter fun p => cutNul p.name = cutNul o.name ∧ p.subindex = o.subindex).flatMap
          fun p => p.bone_influences.map fun i => { i with bone_name := cutNul i.bone_name } := by
  obtain ⟨hb, hi⟩ := small_iff.mp hs
  refine ⟨_, ofMesh_toMesh h hb hi, ?_⟩
  simp only [List.map_map]
  rfl

/-- Equal names and subindices are rejected, whatever else is in the mesh. -/
theorem C42_duplicates (F : FloatConv) (bounds : List (Vector F32 3) → Mesh.BoundingInfo) (d : MeshData)
    (h : ¬ d.objects.Pairwise fun a b => ¬ (a.name = b.name ∧ a.subindex = b.subindex)) :
    ∃ o ∈ d.objects, toMesh F bounds d = .error (.duplicateSubindex o.name o.subindex) := by
  rw [← validate_ok] at h
  cases hv : validateSubindices d.objects with
  | ok u => exact absurd hv h
  | error e =>
    obtain ⟨o, ho, rfl⟩ := validateFrom_error hv
    exact ⟨o, ho, by simp only [toMesh, hv]⟩

/-- Vertex indices which need more than 16 bits are rejected in version 1.10. -/
theorem C42_index_limit (F : FloatConv) (bounds : List (Vector F32 3) → Mesh.BoundingInfo) (d : MeshData)
    (h : d.minor_version = 10)
    (hw : ∃ o ∈ d.objects, ∃ i ∈ o.bone_influences, ∃ w ∈ i.vertex_weights, 2 ^ 16 ≤ w.vertex_index.toNat) :
    ∃ e, toMesh F bounds d = .error e := by
  cases hm : toMesh F bounds d with
  | error e => exact ⟨e, rfl⟩
  | ok m =>
    obtain ⟨o, ho, i, hi, w, hw, hle⟩ := hw
    have := (toMesh_isOk.mp ⟨m, hm⟩).2.2.2.2 h o ho i hi w hw
    omega

/-! ## C43: influence counts -/

/-- The number of bones which influence a vertex. A bone with several weights for it counts once. -/
def influenceCount (l : List BoneInfluence) (v : UInt32) : Nat :=
  (l.filter fun i => decide (∃ w ∈ i.vertex_weights, w.vertex_index = v)).length

theorem influenceCount_eq (l : List BoneInfluence) (v : UInt32) : influenceCount l v = (influencing v l).length := by
  simp [influenceCount, influencing]

/-- The computed number is the largest count of a vertex. -/
theorem C43_max (l : List BoneInfluence) :
    (∀ v, influenceCount l v ≤ calculateMaxInfluences l) ∧ ∃ v, influenceCount l v = calculateMaxInfluences l := by
  simp only [influenceCount_eq]
  obtain ⟨h1, h2⟩ := calculateMaxInfluences_spec l
  refine ⟨h1, ?_⟩
  rcases h2 with h2 | h2
  · exact ⟨0, by have := h1 0; omega⟩
  · exact h2

/-- The flag in the file has 8 bits: it is the largest count of a vertex modulo 256. -/
theorem C43_stored {Wt : Type} [Weight Wt] [LawWeight Wt] (o : MeshObjectData) (g : Mesh.RiggingGroup Wt)
    (h : createRiggingGroup o = .ok g) :
    g.flags.max_influences.toNat = calculateMaxInfluences o.bone_influences % 256 := by
  rw [(createRiggingGroup_ok h).2.2.1, UInt8.toNat_ofNat']

/-- With 256 bones for a vertex the flag becomes 0. -/
theorem C43_wraps {Wt : Type} [Weight Wt] [LawWeight Wt] (o : MeshObjectData) (g : Mesh.RiggingGroup Wt)
    (h : createRiggingGroup o = .ok g) (bone : BoneInfluence) (hb : bone.vertex_weights ≠ [])
    (ho : o.bone_influences = List.replicate 256 bone) :
    calculateMaxInfluences o.bone_influences = 256 ∧ g.flags.max_influences = 0 := by
  have hmax : calculateMaxInfluences o.bone_influences = 256 := by
    obtain ⟨h1, v, h2⟩ := C43_max o.bone_influences
    rw [ho] at h1 h2 ⊢
    cases hw : bone.vertex_weights with
    | nil => exact absurd hw hb
    | cons w ws =>
      have := h1 w.vertex_index
      have e1 : ∀ n, influenceCount (List.replicate n bone) w.vertex_index = n := by
        intro n
        rw [influenceCount, List.filter_replicate_of_pos (by simp [hw]), List.length_replicate]
      have e2 : ∀ n, influenceCount (List.replicate n bone) v ≤ n := by
        intro n
        refine Nat.le_trans (List.length_filter_le _ _) ?_
        rw [List.length_replicate]
        exact Nat.le_refl n
      rw [e1] at this
      have := e2 256
      omega
  refine ⟨hmax, ?_⟩
  rw [(createRiggingGroup_ok h).2.2.1, hmax]
  rfl

/-! ## C44: transforms -/

/-- Component `i` of every vector, if there are that many components. -/
def components (i : Nat) : VectorData → List (Option F32)
  | .Vector2 v => v.map (·[i]?)
  | .Vector3 v => v.map (·[i]?)
  | .Vector4 v => v.map (·[i]?)

/-- The number of components. -/
def dimension : VectorData → Nat
  | .Vector2 _ => 2
  | .Vector3 _ => 3
  | .Vector4 _ => 4

theorem transformInner_shape (mul : Vector F32 4 → Vector F32 4) (w : F32) (d : VectorData) :
    dimension (transformInner mul w d) = dimension d ∧ (transformInner mul w d).len = d.len ∧
    components 3 (transformInner mul w d) = components 3 d := by
  cases d with
  | Vector2 v =>
    simp [transformInner, dimension, VectorData.len, components, VectorData.toVec4WithW, Function.comp_def]
  | Vector3 v =>
    simp [transformInner, dimension, VectorData.len, components, VectorData.toVec4WithW, Function.comp_def]
  | Vector4 v =>
    refine ⟨rfl, by simp [transformInner, VectorData.len, VectorData.toVec4WithW], ?_⟩
    simp only [transformInner, components, VectorData.toVec4WithW]
    apply List.ext_getElem?
    intro i
    simp only [List.getElem?_map, List.getElem?_zipWith]
    cases v[i]? <;> simp

/-- Transformed data has the same dimension and length, and the same fourth components. -/
theorem C44_shape (mul : Vector F32 4 → Vector F32 4) (d : VectorData) :
    dimension (transformPoints mul d) = dimension d ∧ (transformPoints mul d).len = d.len ∧
    components 3 (transformPoints mul d) = components 3 d ∧
    dimension (transformVectors mul d) = dimension d ∧ (transformVectors mul d).len = d.len ∧
    components 3 (transformVectors mul d) = components 3 d := by
  obtain ⟨a, b, c⟩ := transformInner_shape mul 0x3f800000 d
  obtain ⟨a', b', c'⟩ := transformInner_shape mul 0 d
  exact ⟨a, b, c, a', b', c'⟩

/-- The first components are those of the matrix times the point `(x, y, z, 1)` or the vector `(x, y, z, 0)`; a missing
`z` is 0. -/
theorem C44_values (mul : Vector F32 4 → Vector F32 4) (d : VectorData) (i : Nat) (hi : i < 3) (hd : i < dimension d) :
    components i (transformPoints mul d) = (VectorData.toVec3 d).map (fun p => (mul #v[p[0], p[1], p[2], 0x3f800000])[i]?) ∧
    components i (transformVectors mul d) = (VectorData.toVec3 d).map (fun p => (mul #v[p[0], p[1], p[2], 0])[i]?) := by
  have key : ∀ w, components i (transformInner mul w d) = (VectorData.toVec3 d).map (fun p => (mul #v[p[0], p[1], p[2], w])[i]?) := by
    intro w
    cases d with
    | Vector2 v =>
      simp only [dimension] at hd
      rcases i with _ | _ | i
      · simp [transformInner, components, VectorData.toVec4WithW, VectorData.toVec3, Function.comp_def]
      · simp [transformInner, components, VectorData.toVec4WithW, VectorData.toVec3, Function.comp_def]
      · omega
    | Vector3 v =>
      rcases i with _ | _ | _ | i
      · simp [transformInner, components, VectorData.toVec4WithW, VectorData.toVec3, Function.comp_def]
      · simp [transformInner, components, VectorData.toVec4WithW, VectorData.toVec3, Function.comp_def]
      · simp [transformInner, components, VectorData.toVec4WithW, VectorData.toVec3, Function.comp_def]
      · omega
    | Vector4 v =>
      apply List.ext_getElem?
      intro k
      simp only [transformInner, components, VectorData.toVec4WithW, VectorData.toVec3, List.getElem?_map,
        List.getElem?_zipWith]
      rcases i with _ | _ | _ | i
      · cases v[k]? <;> simp
      · cases v[k]? <;> simp
      · cases v[k]? <;> simp
      · omega
  exact ⟨key _, key _⟩

/-! ## C49: order of rigging groups -/

/-- The names and subindices of the rigging groups in order. -/
def riggingKeys : Mesh → List (String × UInt64)
  | .V8 m => m.rigging_buffers.map fun g => (toStringLossy g.mesh_object_name, g.mesh_object_subindex)
  | .V9 m => m.rigging_buffers.map fun g => (toStringLossy g.mesh_object_name, g.mesh_object_subindex)
  | .V10 m => m.rigging_buffers.map fun g => (toStringLossy g.mesh_object_name, g.mesh_object_subindex)

/-- Names are compared by their UTF-8 bytes, then subindices. -/
def keyOrder (a b : String × UInt64) : Prop :=
  (textBytes a.1).map (·.toNat) < (textBytes b.1).map (·.toNat) ∨ (a.1 = b.1 ∧ a.2 ≤ b.2)

theorem textBytes_inj {a b : String} (h : textBytes a = textBytes b) : a = b := by
  have h1 := fromUtf8_textBytes a
  rw [h, fromUtf8_textBytes b] at h1
  exact (Option.some.inj h1).symm

theorem keys_sorted {Wt : Type} [Weight Wt] {objects : List MeshObjectData} {gs : List (Mesh.RiggingGroup Wt)}
    (h : createRiggingBuffers objects = .ok gs) :
    (gs.map fun g => (toStringLossy g.mesh_object_name, g.mesh_object_subindex)).Pairwise keyOrder ∧
    (gs.map fun g => (toStringLossy g.mesh_object_name, g.mesh_object_subindex)).Perm
      (objects.map fun o => (cutNul o.name, o.subindex)) := by
  simp only [createRiggingBuffers] at h
  obtain ⟨gs0, hc, rfl⟩ := except_map_ok h
  constructor
  · rw [List.pairwise_map]
    refine (sortBy_sorted (le := fun a b => keyLe (groupKey a) (groupKey b)) (fun x y => keyLe_total _ _)
      (fun x y z => keyLe_trans _ _ _) gs0).imp ?_
    intro a b hab
    simp only [keyLe] at hab
    split at hab
    · rename_i he
      exact .inr ⟨textBytes_inj he, UInt64.le_iff_toNat_le.mpr (of_decide_eq_true hab)⟩
    · exact .inl (of_decide_eq_true hab)
  · refine ((sortBy_perm _ gs0).map _).trans ?_
    have : gs0.map (fun g => (toStringLossy g.mesh_object_name, g.mesh_object_subindex)) =
        objects.map fun o => (cutNul o.name, o.subindex) := by
      clear h
      induction objects generalizing gs0 with
      | nil => simp only [collect, Except.ok.injEq] at hc; subst hc; rfl
      | cons o os ih =>
        simp only [collect] at hc
        split at hc
        · cases hc
        rename_i g hg
        split at hc
        · cases hc
        rename_i gs' hgs
        cases hc
        obtain ⟨h1, h2⟩ := createRiggingGroup_key hg
        simp only [List.map_cons, ih _ hgs, h1, h2, toStringLossy_ssbhText]
    rw [this]

/-- There is one rigging group for every object, sorted by name and subindex. -/
theorem C49_sorted (F : FloatConv) (bounds : List (Vector F32 3) → Mesh.BoundingInfo) (d : MeshData) (m : Mesh)
    (h : toMesh F bounds d = .ok m) :
    (riggingKeys m).Pairwise keyOrder ∧ (riggingKeys m).Perm (d.objects.map fun o => (cutNul o.name, o.subindex)) := by
  have key : ∀ {A Wt : Type} [Weight Wt] {v : MeshVertexData A} {b : Mesh.BoundingInfo} {mi : Mesh.MeshInner A Wt},
      createMeshInner b v d = .ok mi → createRiggingBuffers d.objects = .ok mi.rigging_buffers := by
    intro A Wt _ v b mi hm
    simp only [createMeshInner] at hm
    split at hm
    · cases hm
    rename_i r hr
    cases hm
    exact hr
  simp only [toMesh] at h
  split at h
  · cases h
  split at h
  · split at h
    · cases h
    obtain ⟨mi, hin, rfl⟩ := except_map_ok h
    exact keys_sorted (key hin)
  split at h
  · split at h
    · cases h
    obtain ⟨mi, hin, rfl⟩ := except_map_ok h
    exact keys_sorted (key hin)
  split at h
  · split at h
    · cases h
    obtain ⟨mi, hin, rfl⟩ := except_map_ok h
    exact keys_sorted (key hin)
  · cases h

/-! ## C50: saving again -/

/-- Storing a value which was stored before does not change it again. -/
structure Stable (F : FloatConv) : Prop where
  half : ∀ x, F.toHalf (F.ofHalf (F.toHalf x)) = F.toHalf x
  byte : ∀ x, F.toByte (F.ofByte (F.toByte x)) = F.toByte x

theorem round_round {F : FloatConv} (h : Stable F) (p : Precision) (x : F32) : p.round F (p.round F x) = p.round F x := by
  cases p
  · rfl
  · simp only [Precision.round, h.half]
  · simp only [Precision.round, h.byte]

theorem stored_stored {F : FloatConv} (h : Stable F) (minor : UInt16) (u : AttributeUsage) (l : List AttributeData) :
    stored F minor u (stored F minor u l) = stored F minor u l := by
  by_cases hb : minor = 8 ∧ u = .Binormal
  · simp [stored, hb]
  · simp only [stored, hb, if_false]
    apply List.ext_getElem?
    intro i
    simp only [List.getElem?_map, List.getElem?_zipIdx, Option.map_map, Nat.zero_add]
    cases l[i]? with
    | none => rfl
    | some a =>
      simp only [Option.map_some, Function.comp, Option.some.injEq, AttributeData.mk.injEq]
      refine ⟨?_, ?_⟩
      · split
        · rfl
        · exact cutNul_idem a.name
      · cases a.data <;> simp [mapComponents, Function.comp_def, round_round h]

theorem storedObject_twice {F : FloatConv} (h : Stable F) (minor : UInt16) (o : MeshObjectData) :
    storedObject F minor (storedObject F minor o) = storedObject F minor o := by
  simp only [storedObject, stored_stored h, cutNul_idem, List.map_map]
  congr 1
  apply List.map_congr_left
  intro i _
  simp [cutNul_idem]

/-- If storing components is stable, a mesh which was read from a created mesh does not change any more when it is
converted again. -/
theorem C50_second_save (F : FloatConv) (hF : Stable F) (bounds : List (Vector F32 3) → Mesh.BoundingInfo)
    (d d' : MeshData) (m m' : Mesh) (h : toMesh F bounds d = .ok m) (hs : Small m) (hf : FewAttributes d)
    (hn : d.objects.Pairwise fun a b => ¬ (cutNul a.name = cutNul b.name ∧ a.subindex = b.subindex))
    (hr : ofMesh F m = .ok d') (h' : toMesh F bounds d' = .ok m') (hs' : Small m') : ofMesh F m' = .ok d' := by
  rw [C48_round_trip F bounds d m h hs hf hn] at hr
  cases hr
  rw [C48_round_trip F bounds _ m' h' hs' ?_ ?_]
  · simp only [List.map_map]
    congr 2
    apply List.map_congr_left
    intro o _
    exact storedObject_twice hF _ o
  · intro h8 o ho u hu
    simp only [List.mem_map] at ho
    obtain ⟨o, ho, rfl⟩ := ho
    refine Nat.le_trans ?_ (hf h8 o ho u hu)
    have : attributesOf (storedObject F d.minor_version o) u = stored F d.minor_version u (attributesOf o u) := by
      cases u <;> rfl
    rw [this, stored]
    split <;> simp
  · rw [List.pairwise_map]
    refine hn.imp ?_
    intro a b hab
    simpa only [storedObject, cutNul_idem] using hab

theorem attributesOf_stored (F : FloatConv) (minor : UInt16) (o : MeshObjectData) (u : AttributeUsage) :
    attributesOf (storedObject F minor o) u = stored F minor u (attributesOf o u) := by
  cases u <;> rfl

theorem mapComponents_len (f : Nat → F32 → F32) (d : VectorData) : (mapComponents f d).len = d.len := by
  cases d <;> simp [mapComponents, VectorData.len]

theorem mem_stored {F : FloatConv} {minor : UInt16} {u : AttributeUsage} {l : List AttributeData} {a' : AttributeData}
    (h : a' ∈ stored F minor u l) : ∃ a ∈ l, a'.data.len = a.data.len := by
  rw [stored] at h
  split at h
  · cases h
  · simp only [List.mem_map, Prod.exists] at h
    obtain ⟨a, i, ha, rfl⟩ := h
    refine ⟨a, List.fst_mem_of_mem_zipIdx ha, ?_⟩
    simp only
    exact mapComponents_len _ _

theorem mem_allAttributes {o : MeshObjectData} {a : AttributeData} : a ∈ allAttributes o ↔ ∃ u ∈ usages, a ∈ attributesOf o u := by
  simp [allAttributes]

/-- A mesh which was read from a created mesh can be saved again, if (1.8 only) every object with faces has some
attribute besides binormals. -/
theorem C50_saves_again (F : FloatConv) (bounds : List (Vector F32 3) → Mesh.BoundingInfo) (d d' : MeshData) (m : Mesh)
    (h : toMesh F bounds d = .ok m) (hs : Small m) (hf : FewAttributes d)
    (hn : d.objects.Pairwise fun a b => ¬ (cutNul a.name = cutNul b.name ∧ a.subindex = b.subindex))
    (hb : d.minor_version = 8 → ∀ o ∈ d.objects, o.vertex_indices ≠ [] →
      ∃ u ∈ usages, u ≠ .Binormal ∧ attributesOf o u ≠ [])
    (hr : ofMesh F m = .ok d') : ∃ m', toMesh F bounds d' = .ok m' := by
  rw [C48_round_trip F bounds d m h hs hf hn] at hr
  cases hr
  obtain ⟨-, hv, hM, hm, hw⟩ := (C40_created_iff F bounds d).mp ⟨m, h⟩
  rw [C40_created_iff]
  refine ⟨?_, ?_, hM, hm, ?_⟩
  · rw [List.pairwise_map]
    exact hn
  · intro o' ho'
    simp only [List.mem_map] at ho'
    obtain ⟨o, ho, rfl⟩ := ho'
    obtain ⟨h3, hl, hi⟩ := hv o ho
    have back : ∀ a' ∈ allAttributes (storedObject F d.minor_version o), ∃ a ∈ allAttributes o, a'.data.len = a.data.len := by
      intro a' ha'
      obtain ⟨u, hu, ha'⟩ := mem_allAttributes.mp ha'
      rw [attributesOf_stored] at ha'
      obtain ⟨a, ha, he⟩ := mem_stored ha'
      exact ⟨a, mem_allAttributes.mpr ⟨u, hu, ha⟩, he⟩
    refine ⟨h3, ?_, ?_⟩
    · intro a' ha' b' hb'
      obtain ⟨a, ha, e1⟩ := back a' ha'
      obtain ⟨b, hb, e2⟩ := back b' hb'
      rw [e1, e2]
      exact hl a ha b hb
    · intro i hmem
      obtain ⟨a, ha, hlt⟩ := hi i hmem
      have : ∃ u ∈ usages, ¬ (d.minor_version = 8 ∧ u = .Binormal) ∧ attributesOf o u ≠ [] := by
        by_cases h8 : d.minor_version = 8
        · obtain ⟨u, hu, h1, h2⟩ := hb h8 o ho (List.ne_nil_of_mem hmem)
          exact ⟨u, hu, fun hh => h1 hh.2, h2⟩
        · obtain ⟨u, hu, ha⟩ := mem_allAttributes.mp ha
          exact ⟨u, hu, fun hh => h8 hh.1, List.ne_nil_of_mem ha⟩
      obtain ⟨u, hu, hne, hnil⟩ := this
      obtain ⟨b, bs, hbs⟩ := List.exists_cons_of_ne_nil hnil
      obtain ⟨-, hsh⟩ := C39_shape F d.minor_version u (attributesOf o u) hne
      obtain ⟨b', hb', hlen, -⟩ := hsh 0 b (by rw [hbs]; rfl)
      refine ⟨b', mem_allAttributes.mpr ⟨u, hu, ?_⟩, ?_⟩
      · rw [attributesOf_stored]
        exact List.mem_of_getElem? hb'
      · rw [hlen, hl b (mem_allAttributes.mpr ⟨u, hu, by rw [hbs]; simp⟩) a ha]
        exact hlt
  · intro h10 o' ho' i' hi' w hw'
    simp only [List.mem_map] at ho'
    obtain ⟨o, ho, rfl⟩ := ho'
    simp only [storedObject, List.mem_map] at hi'
    obtain ⟨i, hi, rfl⟩ := hi'
    exact hw h10 o ho i hi w hw'

/-! ## Examples

A mesh of each version which meets the conditions of the theorems, with the upper halves of the bits as half floats. -/

def exampleConv : FloatConv where
  toHalf x := (x >>> 16).toUInt16
  ofHalf x := x.toUInt32 <<< 16
  toByte x := (x >>> 24).toUInt8
  ofByte x := x.toUInt32 <<< 24

def exampleBounds (_ : List (Vector F32 3)) : Mesh.BoundingInfo :=
  ⟨⟨⟨0, 0, 0⟩, 0⟩, ⟨⟨0, 0, 0⟩, ⟨0, 0, 0⟩⟩, ⟨⟨0, 0, 0⟩, ⟨⟨0, 0, 0⟩, ⟨0, 0, 0⟩, ⟨0, 0, 0⟩⟩, ⟨0, 0, 0⟩⟩⟩

def exampleObject (name : String) (x : F32) : MeshObjectData where
  name := name
  subindex := 3
  parent_bone_name := "Trans"
  sort_bias := -5
  disable_depth_write := true
  disable_depth_test := false
  vertex_indices := [0, 1, 1]
  positions := [⟨"Position0", .Vector3 [#v[x, 2, 3], #v[4, 5, 6]]⟩]
  normals := [⟨"Normal0", .Vector4 [#v[0x3f800000, 2, 3, 4], #v[4, 5, 6, 0x3f800001]]⟩]
  binormals := [⟨"map1", .Vector3 [#v[1, 2, 3], #v[4, 5, 6]]⟩]
  tangents := []
  texture_coordinates := [⟨"map1", .Vector2 [#v[0x3f800000, 2], #v[4, 5]]⟩, ⟨"uvSet", .Vector2 [#v[7, 8], #v[9, x]]⟩]
  color_sets := [⟨"colorSet1", .Vector4 [#v[0x3f800000, 2, 3, 4], #v[4, 5, 6, 0x3f800000]]⟩]
  bone_influences := [⟨"Hip", [⟨0, x⟩, ⟨1, 0x3f000000⟩]⟩, ⟨"Waist", [⟨1, x⟩, ⟨1, x⟩]⟩]

def exampleMesh (minor : UInt16) (name1 name2 : String) : MeshData :=
  ⟨1, minor, [exampleObject name1 1, exampleObject name2 0x40000000]⟩

instance (m : Mesh) : Decidable (Small m) := by
  cases m <;> (unfold Small; infer_instance)

def smallResult (r : Except MeshErr Mesh) : Bool :=
  match r with
  | .ok m => Small m
  | .error _ => false

theorem exists_of_smallResult {r : Except MeshErr Mesh} (h : smallResult r = true) : ∃ m, r = .ok m ∧ Small m := by
  cases r with
  | error e => cases h
  | ok m => exact ⟨m, rfl, of_decide_eq_true h⟩

/-- The conditions of C39 to C42, C48 and C49. -/
example : ∃ m, toMesh exampleConv exampleBounds (exampleMesh 10 "b" "a") = .ok m ∧ Small m :=
  exists_of_smallResult (by decide +kernel)
example : ∃ m, toMesh exampleConv exampleBounds (exampleMesh 9 "b" "a") = .ok m ∧ Small m :=
  exists_of_smallResult (by decide +kernel)
example : ∃ m, toMesh exampleConv exampleBounds (exampleMesh 8 "b" "a") = .ok m ∧ Small m :=
  exists_of_smallResult (by decide +kernel)
example : FewAttributes (exampleMesh 8 "b" "a") := by
  intro _ o ho u
  simp only [exampleMesh, List.mem_cons, List.not_mem_nil, or_false] at ho
  rcases ho with rfl | rfl <;> cases u <;> simp [exampleObject, attributesOf]
example : ∀ o ∈ (exampleMesh 10 "b" "a").objects, '\x00' ∉ o.name.toList := by decide +kernel

/-- The condition of C40_object. -/
example : ¬ Valid { exampleObject "a" 1 with vertex_indices := [0, 1, 2] } := by
  rintro ⟨-, -, h⟩
  obtain ⟨a, ha, h⟩ := h 2 (by simp)
  simp only [exampleObject, allAttributes, usages, List.flatMap_cons, attributesOf, List.flatMap_nil, List.append_nil,
    List.nil_append, List.cons_append, List.mem_cons, List.not_mem_nil, or_false] at ha
  rcases ha with rfl | rfl | rfl | rfl | rfl | rfl <;> exact absurd h (by decide)

/-- The condition of C42_duplicates. -/
example : ¬ (exampleMesh 10 "a" "a").objects.Pairwise fun a b => ¬ (a.name = b.name ∧ a.subindex = b.subindex) := by
  decide +kernel

/-- The condition of C42_index_limit. -/
example : ∃ o ∈ [{ exampleObject "a" 1 with bone_influences := [⟨"Hip", [⟨0x10000, 1⟩]⟩] }], ∃ i ∈ o.bone_influences,
    ∃ w ∈ i.vertex_weights, 2 ^ 16 ≤ w.vertex_index.toNat :=
  ⟨_, List.mem_singleton_self _, _, List.mem_singleton_self _, _, List.mem_singleton_self _, by decide⟩

theorem groupV8_ok (o : MeshObjectData) : ∃ g : Mesh.RiggingGroup (List Mesh.VertexWeightV8), createRiggingGroup o = .ok g := by
  obtain ⟨gs, h⟩ := (createRiggingBuffers_isOk (Wt := List Mesh.VertexWeightV8) (objects := [o])).mpr
    (fun _ _ _ _ => ⟨_, rfl⟩)
  simp only [createRiggingBuffers, collect] at h
  cases hg : createRiggingGroup (Wt := List Mesh.VertexWeightV8) o with
  | ok g => exact ⟨g, rfl⟩
  | error e => rw [hg] at h; cases h

/-- The conditions of C43. -/
example : ∃ g : Mesh.RiggingGroup Bytes, createRiggingGroup (exampleObject "a" 1) = .ok g := ⟨_, rfl⟩
example : calculateMaxInfluences (exampleObject "a" 1).bone_influences = 2 := by decide +kernel
example : ∃ g : Mesh.RiggingGroup (List Mesh.VertexWeightV8), createRiggingGroup
    { exampleObject "a" 1 with bone_influences := List.replicate 256 ⟨"Hip", [⟨0, 1⟩]⟩ } = .ok g := by
  exact groupV8_ok _

/-- The condition of C50. -/
example : Stable exampleConv where
  half x := by
    simp only [exampleConv]
    apply UInt16.toNat_inj.mp
    simp only [UInt32.toNat_toUInt16, UInt32.toNat_shiftRight, UInt32.toNat_shiftLeft, UInt16.toNat_toUInt32,
      Nat.shiftRight_eq_div_pow, Nat.shiftLeft_eq]
    have := x.toNat_lt
    simp
    omega
  byte x := by
    simp only [exampleConv]
    apply UInt8.toNat_inj.mp
    simp only [UInt32.toNat_toUInt8, UInt32.toNat_shiftRight, UInt32.toNat_shiftLeft, UInt8.toNat_toUInt32,
      Nat.shiftRight_eq_div_pow, Nat.shiftLeft_eq]
    have := x.toNat_lt
    simp
    omega

def influencesOf (r : Except MeshErr MeshData) : Option (List (List BoneInfluence)) :=
  match r with
  | .ok d => some (d.objects.map (·.bone_influences))
  | .error _ => none

/-- C42 does not hold for names with NUL characters: both objects get the influences of both. -/
theorem C42_nul_fails : ∃ m, toMesh exampleConv exampleBounds (exampleMesh 10 "a\x00x" "a\x00y") = .ok m ∧ Small m ∧
    ∃ d', ofMesh exampleConv m = .ok d' ∧ d'.objects.map (·.bone_influences) ≠
      (exampleMesh 10 "a\x00x" "a\x00y").objects.map (·.bone_influences) := by
  obtain ⟨m, h, hs⟩ := exists_of_smallResult
    (r := toMesh exampleConv exampleBounds (exampleMesh 10 "a\x00x" "a\x00y")) (by decide +kernel)
  refine ⟨m, h, hs, ?_⟩
  obtain ⟨d', h1, h2⟩ := C42_shared _ _ _ m h hs
  refine ⟨d', h1, ?_⟩
  rw [h2]
  decide +kernel

/-- An object which has faces but only binormals. -/
def binormalsOnly : MeshObjectData :=
  { exampleObject "a" 1 with positions := [], normals := [], texture_coordinates := [], color_sets := [] }

/-- A mesh of version 1.8 with only binormals can be saved once, but what is read can not be saved again. -/
theorem C50_binormals_only : ∃ m, toMesh exampleConv exampleBounds ⟨1, 8, [binormalsOnly]⟩ = .ok m ∧ Small m ∧
    ∃ d', ofMesh exampleConv m = .ok d' ∧ ¬ ∃ m', toMesh exampleConv exampleBounds d' = .ok m' := by
  obtain ⟨m, h, hs⟩ := exists_of_smallResult
    (r := toMesh exampleConv exampleBounds ⟨1, 8, [binormalsOnly]⟩) (by decide +kernel)
  refine ⟨m, h, hs, _, C48_nul_free _ _ _ m h hs ?_ ?_, ?_⟩
  · intro _ o ho u _
    simp only [List.mem_singleton] at ho
    subst ho
    cases u <;> decide
  · intro o ho
    simp only [List.mem_singleton] at ho
    subst ho
    decide
  · rw [C40_created_iff]
    rintro ⟨-, hv, -⟩
    obtain ⟨-, -, hi⟩ := hv (storedObject exampleConv 8 binormalsOnly) (by simp)
    obtain ⟨a, ha, -⟩ := hi 0 (by decide)
    simp [allAttributes, usages, attributesOf, storedObject, stored, binormalsOnly, exampleObject] at ha

end Props
end Verif
