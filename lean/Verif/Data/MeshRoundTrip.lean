import Verif.Data.MeshVersionLaws
import Verif.Data.MeshRiggingLaws
/-!
# Reading a mesh which was created from data
-/

namespace Verif
namespace MeshData

/-- The checks of one object. -/
def Checked (o : MeshObjectData) : Prop :=
  o.vertex_indices.length % 3 = 0 ∧ ∃ n, o.vertexCount = .ok n ∧ ∀ i ∈ o.vertex_indices, i.toNat < n

section Inner
variable {A : Type}

theorem createMeshObject_isOk {bounds : List (Vector F32 3) → Mesh.BoundingInfo} {ca : MeshObjectData → MeshAttributes A}
    {data : MeshObjectData} {s : BufferState} :
    (∃ r, createMeshObject bounds ca data s = .ok r) ↔ Checked data := by
  constructor
  · rintro ⟨⟨o, s'⟩, h⟩
    obtain ⟨h1, n, h2, h3, -⟩ := createMeshObject_ok h
    exact ⟨h1, n, h2, h3⟩
  · rintro ⟨h1, n, h2, h3⟩
    simp only [createMeshObject, h2, maxIndex_filter.mpr h3]
    rw [if_neg (by omega)]
    exact ⟨_, rfl⟩

theorem createMeshObjectsFrom_isOk {bounds : List (Vector F32 3) → Mesh.BoundingInfo}
    {ca : MeshObjectData → MeshAttributes A} : ∀ {objects : List MeshObjectData} {s : BufferState},
    (∃ r, createMeshObjectsFrom bounds ca objects s = .ok r) ↔ ∀ o ∈ objects, Checked o
  | [], s => by simp [createMeshObjectsFrom]
  | data :: rest, s => by
    have h1 := createMeshObject_isOk (bounds := bounds) (ca := ca) (data := data) (s := s)
    simp only [createMeshObjectsFrom, List.mem_cons, forall_eq_or_imp]
    cases ho : createMeshObject bounds ca data s with
    | error e =>
      rw [ho] at h1
      simp only [reduceCtorEq, exists_false, false_iff] at h1
      simp [h1]
    | ok r =>
      obtain ⟨o, s'⟩ := r
      rw [ho] at h1
      have h1' : Checked data := h1.mp ⟨_, rfl⟩
      have ih := createMeshObjectsFrom_isOk (bounds := bounds) (ca := ca) (objects := rest) (s := s')
      simp only [h1', true_and]
      rw [← ih]
      cases createMeshObjectsFrom bounds ca rest s' with
      | error e => simp
      | ok r => simp

theorem createMeshObjects_isOk {bounds : List (Vector F32 3) → Mesh.BoundingInfo}
    {ca : MeshObjectData → MeshAttributes A} {objects : List MeshObjectData} :
    (∃ v, createMeshObjects bounds ca objects = .ok v) ↔ ∀ o ∈ objects, Checked o := by
  have h := createMeshObjectsFrom_isOk (bounds := bounds) (ca := ca) (objects := objects)
    (s := ⟨⟨.init, .init, .init, .init⟩, 0, .init⟩)
  rw [← h]
  simp only [createMeshObjects]
  split <;> simp [*]

/-- The kinds of errors of an object. -/
theorem createMeshObject_error {bounds : List (Vector F32 3) → Mesh.BoundingInfo} {ca : MeshObjectData → MeshAttributes A}
    {data : MeshObjectData} {s : BufferState} {e : MeshErr} (h : createMeshObject bounds ca data s = .error e) :
    (data.vertex_indices.length % 3 ≠ 0 ∧ e = .nonTriangulatedFaces data.vertex_indices.length) ∨
    (data.vertexCount = .error .attributeDataLengthMismatch ∧ e = .attributeDataLengthMismatch) ∨
    (∃ n, data.vertexCount = .ok n ∧ ∃ i ∈ data.vertex_indices, n ≤ i.toNat ∧ e = .vertexIndexOutOfRange i.toNat n) := by
  simp only [createMeshObject] at h
  split at h
  · rename_i h3
    cases h
    exact .inl ⟨h3, rfl⟩
  split at h
  · rename_i e' he
    cases h
    have := vertexCount_error he
    subst this
    exact .inr (.inl ⟨he, rfl⟩)
  rename_i n hn
  split at h
  · rename_i i hi
    cases h
    rw [Option.filter_eq_some_iff] at hi
    obtain ⟨h1, h2⟩ := hi
    exact .inr (.inr ⟨n, hn, i, (maxIndex_spec h1).1, by simpa using h2, rfl⟩)
  · cases h

theorem tidy_start : TidyAll ⟨⟨.init, .init, .init, .init⟩, 0, .init⟩ := ⟨tidy_init, tidy_init, tidy_init⟩

/-- The object which is read. -/
def readObject (F : FloatConv) (items : List Item) (objects : List MeshObjectData) (o : MeshObjectData) : MeshObjectData where
  name := cutNul o.name
  subindex := o.subindex
  parent_bone_name := cutNul o.parent_bone_name
  sort_bias := o.sort_bias
  disable_depth_write := o.disable_depth_write
  disable_depth_test := o.disable_depth_test
  vertex_indices := o.vertex_indices
  positions := readBack F items .Position
  normals := readBack F items .Normal
  binormals := readBack F items .Binormal
  tangents := readBack F items .Tangent
  texture_coordinates := readBack F items .TextureCoordinate
  color_sets := readBack F items .ColorSet
  bone_influences := (objects.filter fun p => cutNul p.name = cutNul o.name ∧ p.subindex = o.subindex).flatMap
    fun p => p.bone_influences.map cutBone

variable [Attribute A] {Wt : Type} [Weight Wt] [LawWeight Wt]

theorem inner_back {F : FloatConv} {bounds : List (Vector F32 3) → Mesh.BoundingInfo}
    {ca : MeshObjectData → MeshAttributes A} {items0 items1 : MeshObjectData → List Item}
    (hl : ∀ data, Laid (ca data) (items0 data) (items1 data))
    (hlen : ∀ data, ∀ it ∈ items0 data ++ items1 data, it.enc.chunks.length ∈ data.lengths)
    {data : MeshData} {v : MeshVertexData A} {b : Mesh.BoundingInfo} {m : Mesh.MeshInner A Wt}
    (hv : createMeshObjects bounds ca data.objects = .ok v) (hm : createMeshInner b v data = .ok m)
    (hb : ∀ x ∈ m.vertex_buffers, x.length < 2 ^ 32) (hi : m.index_buffer.length < 2 ^ 32) :
    readMeshObjectsInner F m =
      .ok (data.objects.map fun o => readObject F (items0 o ++ items1 o) data.objects o) := by
  simp only [createMeshInner] at hm
  split at hm
  · cases hm
  rename_i rigging hr
  cases hm
  simp only [createMeshObjects] at hv
  split at hv
  · cases hv
  rename_i os s hos
  cases hv
  have h0 : s.buffers.b0.buf.length < 2 ^ 32 := hb _ (by simp)
  have h1 : s.buffers.b1.buf.length < 2 ^ 32 := hb _ (by simp)
  obtain ⟨ht, hall⟩ := createMeshObjectsFrom_reads (F := F) hl hlen hos tidy_start h0 h1 hi
  have hc : Contains s.buffers.b0.buf s.buffers.b1.buf s.indexBuffer.buf s := ⟨ht.h0.hasAll, ht.h1.hasAll, ht.hi.hasAll⟩
  apply All2.collect
  refine hall.imp ?_
  rintro o mo ⟨hf, -, -, hrd⟩
  obtain ⟨r1, r2⟩ := hrd _ _ s.buffers.b2.buf s.buffers.b3.buf _ hc
  have r3 := readRiggingData_back hr (cutNul o.name) o.subindex
  simp only [readMeshObject, r1, r2, hf.name, hf.subindex, hf.parent, hf.sort_bias, hf.depth_write, hf.depth_test,
    toStringLossy_ssbhText, r3, bind, Except.bind, pure, Except.pure, readObject]
  cases o.disable_depth_write <;> cases o.disable_depth_test <;> rfl

end Inner

/-! ## All versions -/

def vertexBuffers : Mesh → List Bytes
  | .V8 m => m.vertex_buffers
  | .V9 m => m.vertex_buffers
  | .V10 m => m.vertex_buffers

def indexBuffer : Mesh → Bytes
  | .V8 m => m.index_buffer
  | .V9 m => m.index_buffer
  | .V10 m => m.index_buffer

def readItems (F : FloatConv) (minor : UInt16) (o : MeshObjectData) : List Item :=
  if minor = 10 then items0V10 F o ++ items1V10 F o
  else if minor = 8 then items0V8 F o ++ items1V8 F o
  else items0V9 F o ++ items1V9 F o

theorem except_map_ok {x : Except ε α} {f : α → β} {r : β} (h : x.map f = .ok r) : ∃ y, x = .ok y ∧ r = f y := by
  cases x with
  | error e => cases h
  | ok y => cases h; exact ⟨y, rfl, rfl⟩

theorem ofMesh_toMesh {F : FloatConv} {bounds : List (Vector F32 3) → Mesh.BoundingInfo} {data : MeshData} {m : Mesh}
    (h : toMesh F bounds data = .ok m) (hb : ∀ x ∈ vertexBuffers m, x.length < 2 ^ 32)
    (hi : (indexBuffer m).length < 2 ^ 32) :
    ofMesh F m = .ok ⟨data.major_version, data.minor_version,
      data.objects.map fun o => readObject F (readItems F data.minor_version o) data.objects o⟩ := by
  simp only [toMesh] at h
  split at h
  · cases h
  split at h
  · rename_i hver
    split at h
    · cases h
    rename_i v hv
    obtain ⟨mi, hin, rfl⟩ := except_map_ok h
    have := inner_back (F := F) (laidV10 F) (lengthsV10 F) hv hin hb hi
    simp only [ofMesh, this, Except.map, hver.1, hver.2, readItems, if_true]
  rename_i h10
  split at h
  · rename_i hver
    split at h
    · cases h
    rename_i v hv
    obtain ⟨mi, hin, rfl⟩ := except_map_ok h
    have := inner_back (F := F) (laidV8 F) (lengthsV8 F) hv hin hb hi
    simp only [ofMesh, this, Except.map, hver.1, hver.2, readItems]
    rfl
  rename_i h8
  split at h
  · rename_i hver
    split at h
    · cases h
    rename_i v hv
    obtain ⟨mi, hin, rfl⟩ := except_map_ok h
    have := inner_back (F := F) (laidV9 F) (lengthsV9 F) hv hin hb hi
    simp only [ofMesh, this, Except.map, hver.1, hver.2, readItems]
    rfl
  · cases h

/-! ## When a mesh can be created -/

theorem createRiggingBuffers_isOk {Wt : Type} [Weight Wt] {objects : List MeshObjectData} :
    (∃ gs, createRiggingBuffers (Wt := Wt) objects = .ok gs) ↔
      ∀ o ∈ objects, ∀ i ∈ o.bone_influences, ∃ w : Wt, Weight.fromWeights i.vertex_weights = .ok w := by
  have notErr : ∀ {ε α : Type} (x : Except ε α), (∃ r, x = .ok r) ↔ ¬ ∃ e, x = .error e := by
    intro ε α x; cases x <;> simp
  have hmap : ∀ {ε α β : Type} (x : Except ε α) (f : α → β), (∃ e, x.map f = .error e) ↔ ∃ e, x = .error e := by
    intro ε α β x f; cases x <;> simp [Except.map]
  rw [notErr, createRiggingBuffers, hmap, collect_error]
  have hg : ∀ o : MeshObjectData, (∃ e, createRiggingGroup (Wt := Wt) o = .error e) ↔
      ∃ i ∈ o.bone_influences, ∃ e, Weight.fromWeights (Wt := Wt) i.vertex_weights = .error e := by
    intro o
    rw [createRiggingGroup, hmap, collect_error]
    constructor
    · rintro ⟨i, hi, h⟩; exact ⟨i, hi, (hmap _ _).mp h⟩
    · rintro ⟨i, hi, h⟩; exact ⟨i, hi, (hmap _ _).mpr h⟩
  constructor
  · intro h o ho i hi
    rw [notErr]
    intro he
    exact h ⟨o, ho, (hg o).mpr ⟨i, hi, he⟩⟩
  · rintro h ⟨o, ho, he⟩
    obtain ⟨i, hi, e, he⟩ := (hg o).mp he
    obtain ⟨w, hw⟩ := h o ho i hi
    rw [hw] at he
    cases he

theorem createMeshInner_isOk {Wt A : Type} [Weight Wt] {b : Mesh.BoundingInfo} {v : MeshVertexData A} {data : MeshData} :
    (∃ m, createMeshInner (Wt := Wt) b v data = .ok m) ↔
      ∀ o ∈ data.objects, ∀ i ∈ o.bone_influences, ∃ w : Wt, Weight.fromWeights i.vertex_weights = .ok w := by
  rw [← createRiggingBuffers_isOk]
  simp only [createMeshInner]
  cases createRiggingBuffers (Wt := Wt) data.objects <;> simp

theorem validate_ok {objects : List MeshObjectData} : validateSubindices objects = .ok () ↔
    objects.Pairwise (fun a b => ¬ (a.name = b.name ∧ a.subindex = b.subindex)) := by
  rw [validateSubindices, validateFrom_ok]
  simp

theorem toMesh_isOk {F : FloatConv} {bounds : List (Vector F32 3) → Mesh.BoundingInfo} {data : MeshData} :
    (∃ m, toMesh F bounds data = .ok m) ↔
      data.objects.Pairwise (fun a b => ¬ (a.name = b.name ∧ a.subindex = b.subindex)) ∧
      (∀ o ∈ data.objects, Checked o) ∧
      data.major_version = 1 ∧ (data.minor_version = 8 ∨ data.minor_version = 9 ∨ data.minor_version = 10) ∧
      (data.minor_version = 10 → ∀ o ∈ data.objects, ∀ i ∈ o.bone_influences, ∀ w ∈ i.vertex_weights,
        w.vertex_index.toNat < 2 ^ 16) := by
  have hmap : ∀ {ε α β : Type} (x : Except ε α) (f : α → β), (∃ r, x.map f = .ok r) ↔ ∃ r, x = .ok r := by
    intro ε α β x f; cases x <;> simp [Except.map]
  have step : ∀ {A Wt : Type} [Weight Wt] (ca : MeshObjectData → MeshAttributes A) (b : Mesh.BoundingInfo)
      (f : Mesh.MeshInner A Wt → Mesh)
      (r : Except MeshErr Mesh) (_ : ∀ e, createMeshObjects bounds ca data.objects = .error e → r = .error e)
      (_ : ∀ v, createMeshObjects bounds ca data.objects = .ok v → r = (createMeshInner b v data).map f),
      (∃ m, r = .ok m) ↔
      (∀ o ∈ data.objects, Checked o) ∧
        ∀ o ∈ data.objects, ∀ i ∈ o.bone_influences, ∃ w : Wt, Weight.fromWeights i.vertex_weights = .ok w := by
    intro A Wt _ ca b f r he hk
    rw [← createMeshObjects_isOk (bounds := bounds) (ca := ca)]
    cases hc : createMeshObjects bounds ca data.objects with
    | error e => simp [he e hc]
    | ok v =>
      rw [hk v hc, hmap, createMeshInner_isOk]
      simp
  have w8 : ∀ ws : List VertexWeight, ∃ w : List Mesh.VertexWeightV8, Weight.fromWeights ws = .ok w := fun ws => ⟨_, rfl⟩
  have w10 : ∀ ws : List VertexWeight, (∃ w : Bytes, Weight.fromWeights ws = .ok w) ↔
    ∀ w ∈ ws, w.vertex_index.toNat < 2 ^ 16 := fun ws => createVertexWeightsV10_ok
  rw [← validate_ok]
  simp only [toMesh]
  cases hv : validateSubindices data.objects with
  | error e => simp
  | ok u =>
    simp only [true_and]
    split
    · rename_i h
      refine (step (createAttributesV10 F) _ .V10 _ (fun e h => by rw [h]) (fun v h => by rw [h])).trans ?_
      simp only [w10, h.1, h.2, true_and, true_implies]
      constructor
      · rintro ⟨a, b⟩; exact ⟨a, .inr (.inr trivial), b⟩
      · rintro ⟨a, -, b⟩; exact ⟨a, b⟩
    · rename_i h10
      split
      · rename_i h
        refine (step (createAttributesV8 F) _ .V8 _ (fun e h => by rw [h]) (fun v h => by rw [h])).trans ?_
        simp only [w8, h.1, h.2]
        constructor
        · rintro ⟨a, -⟩; exact ⟨a, trivial, .inl trivial, fun h => absurd h (by decide)⟩
        · rintro ⟨a, -⟩; exact ⟨a, fun _ _ _ _ => trivial⟩
      · rename_i h8
        split
        · rename_i h
          refine (step (createAttributesV9 F) _ .V9 _ (fun e h => by rw [h]) (fun v h => by rw [h])).trans ?_
          simp only [w8, h.1, h.2]
          constructor
          · rintro ⟨a, -⟩; exact ⟨a, trivial, .inr (.inl trivial), fun h => absurd h (by decide)⟩
          · rintro ⟨a, -⟩; exact ⟨a, fun _ _ _ _ => trivial⟩
        · rename_i h9
          simp only [reduceCtorEq, exists_false, false_iff]
          rintro ⟨-, h1, h | h | h, -⟩
          · exact h8 ⟨h1, h⟩
          · exact h9 ⟨h1, h⟩
          · exact h10 ⟨h1, h⟩

end MeshData
end Verif
