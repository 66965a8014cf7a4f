import Verif.Data.MeshDataLaws
/-!
# The attribute layouts of the three versions

Each version lays out its attributes as `MeshDataLaws` expects.
-/

namespace Verif
namespace MeshData

theorem typeV10 (d : VectorDataV10) : dataTypeV10 (vectorTypeV10 d) = d.type := by cases d <;> rfl
theorem typeV8 (d : VectorDataV8) : dataTypeV8 (vectorTypeV8 d) = d.toV10.type := by cases d <;> rfl
theorem sizeV10 (d : VectorDataV10) : sizeInBytesV10 (vectorTypeV10 d) = d.size := by cases d <;> rfl
theorem sizeV8 (d : VectorDataV8) : sizeInBytesV8 (vectorTypeV8 d) = d.toV10.size := by cases d <;> rfl

theorem firstName_text (s : String) : firstName [ssbhText s] = cutNul s := by
  simp [firstName, ssbhToStr_ssbhText]

/-- The items of the versions. -/
def convV8 (x : String × Nat × Mesh.AttributeUsageV8 × VectorDataV8) : Item :=
  ⟨usageV8 x.2.2.1, nameV8 x.2.2.1 (x.2.1 % 2 ^ 32), x.2.2.2.toV10⟩
def convV9 (x : String × Nat × Mesh.AttributeUsageV9 × VectorDataV8) : Item :=
  ⟨usageV9 x.2.2.1, cutNul x.1, x.2.2.2.toV10⟩
def convV10 (x : String × Nat × Mesh.AttributeUsageV9 × VectorDataV10) : Item :=
  ⟨usageV9 x.2.2.1, cutNul x.1, x.2.2.2⟩

theorem createLawsV8 : CreateLaws createAttributeV8 vectorTypeV8 (fun a => sizeInBytesV8 a.data_type) convV8 where
  usage _ _ _ _ _ _ := rfl
  toAttr _ i _ _ v o := by
    simp only [Attribute.toAttribute, createAttributeV8, convV8, typeV8, UInt32.toNat_ofNat']
  size _ _ _ _ v _ := sizeV8 v

theorem createLawsV9 : CreateLaws createAttributeV9 vectorTypeV8 (fun a => sizeInBytesV8 a.data_type) convV9 where
  usage _ _ _ _ _ _ := rfl
  toAttr _ i _ _ v o := by
    simp only [Attribute.toAttribute, createAttributeV9, convV9, typeV8, UInt32.toNat_ofNat', firstName_text]
  size _ _ _ _ v _ := sizeV8 v

theorem createLawsV10 : CreateLaws createAttributeV10 vectorTypeV10 (fun a => sizeInBytesV10 a.data_type) convV10 where
  usage _ _ _ _ _ _ := rfl
  toAttr _ i _ _ v o := by
    simp only [Attribute.toAttribute, createAttributeV10, convV10, typeV10, UInt32.toNat_ofNat', firstName_text]
  size _ _ _ _ v _ := sizeV10 v

theorem writeBufferV8 (s : UInt32) (data : List (String × Nat × Mesh.AttributeUsageV8 × VectorDataV8)) (base : Nat) (w : W) :
    writeBuffer (s, .V8 (data.map fun x => x.2.2.2)) base w =
      writeColumns Item.chunks Item.size s.toNat base (data.map convV8) w :=
  writeAttributeData_columns (conv := convV8) (fun x _ _ _ => x.2.2.2.write_eq _ _ _) (fun x => sizeV8 x.2.2.2) _ _ data w

theorem writeBufferV9 (s : UInt32) (data : List (String × Nat × Mesh.AttributeUsageV9 × VectorDataV8)) (base : Nat) (w : W) :
    writeBuffer (s, .V8 (data.map fun x => x.2.2.2)) base w =
      writeColumns Item.chunks Item.size s.toNat base (data.map convV9) w :=
  writeAttributeData_columns (conv := convV9) (fun x _ _ _ => x.2.2.2.write_eq _ _ _) (fun x => sizeV8 x.2.2.2) _ _ data w

theorem writeBufferV10 (s : UInt32) (data : List (String × Nat × Mesh.AttributeUsageV9 × VectorDataV10)) (base : Nat) (w : W) :
    writeBuffer (s, .V10 (data.map fun x => x.2.2.2)) base w =
      writeColumns Item.chunks Item.size s.toNat base (data.map convV10) w :=
  writeAttributeData_columns (conv := convV10) (fun x _ _ _ => x.2.2.2.write_eq _ _ _) (fun x => sizeV10 x.2.2.2) _ _ data w

/-! ## The items of an object -/

/-- The attributes of one usage in the file, with what becomes of a name and of the vectors. -/
def itemsOf (u : AttributeUsage) (name : String → Nat → String) (enc : VectorData → VectorDataV10)
    (l : List AttributeData) : List Item :=
  l.zipIdx.map fun (a, i) => ⟨u, name a.name i, enc a.data⟩

def items0V8 (F : FloatConv) (o : MeshObjectData) : List Item :=
  itemsOf .Position (fun _ i => nameV8 .Position (i % 2 ^ 32)) (fun d => (VectorDataV8.fromPositions d).toV10) o.positions
    ++ itemsOf .Normal (fun _ i => nameV8 .Normal (i % 2 ^ 32)) (fun d => (VectorDataV8.fromVectors F d).toV10) o.normals
    ++ itemsOf .Tangent (fun _ i => nameV8 .Tangent (i % 2 ^ 32)) (fun d => (VectorDataV8.fromVectors F d).toV10) o.tangents

def items1V8 (F : FloatConv) (o : MeshObjectData) : List Item :=
  itemsOf .TextureCoordinate (fun _ i => nameV8 .TextureCoordinate (i % 2 ^ 32))
      (fun d => (VectorDataV8.fromVectors F d).toV10) o.texture_coordinates
    ++ itemsOf .ColorSet (fun _ i => nameV8 .ColorSet (i % 2 ^ 32)) (fun d => (VectorDataV8.fromColors F d).toV10) o.color_sets

def items0V9 (F : FloatConv) (o : MeshObjectData) : List Item :=
  itemsOf .Position (fun s _ => cutNul s) (fun d => (VectorDataV8.fromPositions d).toV10) o.positions
    ++ itemsOf .Normal (fun s _ => cutNul s) (fun d => (VectorDataV8.fromVectors F d).toV10) o.normals
    ++ itemsOf .Binormal (fun s _ => cutNul s) (fun d => (VectorDataV8.fromVectors F d).toV10) o.binormals
    ++ itemsOf .Tangent (fun s _ => cutNul s) (fun d => (VectorDataV8.fromVectors F d).toV10) o.tangents

def items1V9 (F : FloatConv) (o : MeshObjectData) : List Item :=
  itemsOf .TextureCoordinate (fun s _ => cutNul s) (fun d => (VectorDataV8.fromVectors F d).toV10) o.texture_coordinates
    ++ itemsOf .ColorSet (fun s _ => cutNul s) (fun d => (VectorDataV8.fromColors F d).toV10) o.color_sets

def items0V10 (F : FloatConv) (o : MeshObjectData) : List Item :=
  itemsOf .Position (fun s _ => cutNul s) VectorDataV10.fromPositions o.positions
    ++ itemsOf .Normal (fun s _ => cutNul s) (VectorDataV10.fromVectors F) o.normals
    ++ itemsOf .Binormal (fun s _ => cutNul s) (VectorDataV10.fromVectors F) o.binormals
    ++ itemsOf .Tangent (fun s _ => cutNul s) (VectorDataV10.fromVectors F) o.tangents

def items1V10 (F : FloatConv) (o : MeshObjectData) : List Item :=
  itemsOf .TextureCoordinate (fun s _ => cutNul s) (VectorDataV10.fromVectors F) o.texture_coordinates
    ++ itemsOf .ColorSet (fun s _ => cutNul s) (VectorDataV10.fromColors F) o.color_sets

theorem numbered_conv {U V : Type} {conv : String × Nat × U × V → Item} {u : U} {f : VectorData → V}
    {uu : AttributeUsage} {name : String → Nat → String} {enc : VectorData → VectorDataV10}
    (h : ∀ s i d, conv (s, i, u, f d) = ⟨uu, name s i, enc d⟩) (l : List AttributeData) :
    (numbered l u f).map conv = itemsOf uu name enc l := by
  simp only [numbered, itemsOf, List.map_map]
  exact List.map_congr_left fun x _ => h _ _ _

theorem laidV8 (F : FloatConv) (o : MeshObjectData) : Laid (createAttributesV8 F o) (items0V8 F o) (items1V8 F o) := by
  have h := laid_of createLawsV8 (versioned := .V8) writeBufferV8
    (numbered o.positions Mesh.AttributeUsageV8.Position VectorDataV8.fromPositions
      ++ numbered o.normals Mesh.AttributeUsageV8.Normal (VectorDataV8.fromVectors F)
      ++ numbered o.tangents Mesh.AttributeUsageV8.Tangent (VectorDataV8.fromVectors F))
    (numbered o.texture_coordinates Mesh.AttributeUsageV8.TextureCoordinate (VectorDataV8.fromVectors F)
      ++ numbered o.color_sets Mesh.AttributeUsageV8.ColorSet (VectorDataV8.fromColors F)) true
  simp only [List.map_append] at h
  rw [numbered_conv (conv := convV8) (u := .Position) (uu := .Position) (name := fun _ i => nameV8 .Position (i % 2 ^ 32))
      (f := VectorDataV8.fromPositions) (enc := fun d => (VectorDataV8.fromPositions d).toV10) (fun _ _ _ => rfl),
    numbered_conv (conv := convV8) (u := .Normal) (uu := .Normal) (name := fun _ i => nameV8 .Normal (i % 2 ^ 32))
      (f := VectorDataV8.fromVectors F) (enc := fun d => (VectorDataV8.fromVectors F d).toV10) (fun _ _ _ => rfl),
    numbered_conv (conv := convV8) (u := .Tangent) (uu := .Tangent) (name := fun _ i => nameV8 .Tangent (i % 2 ^ 32))
      (f := VectorDataV8.fromVectors F) (enc := fun d => (VectorDataV8.fromVectors F d).toV10) (fun _ _ _ => rfl),
    numbered_conv (conv := convV8) (u := .TextureCoordinate) (uu := .TextureCoordinate) (name := fun _ i => nameV8 .TextureCoordinate (i % 2 ^ 32))
      (f := VectorDataV8.fromVectors F) (enc := fun d => (VectorDataV8.fromVectors F d).toV10) (fun _ _ _ => rfl),
    numbered_conv (conv := convV8) (u := .ColorSet) (uu := .ColorSet) (name := fun _ i => nameV8 .ColorSet (i % 2 ^ 32))
      (f := VectorDataV8.fromColors F) (enc := fun d => (VectorDataV8.fromColors F d).toV10) (fun _ _ _ => rfl)] at h
  exact h

theorem laidV9 (F : FloatConv) (o : MeshObjectData) : Laid (createAttributesV9 F o) (items0V9 F o) (items1V9 F o) := by
  have h := laid_of createLawsV9 (versioned := .V8) writeBufferV9
    (numbered o.positions Mesh.AttributeUsageV9.Position VectorDataV8.fromPositions
      ++ numbered o.normals Mesh.AttributeUsageV9.Normal (VectorDataV8.fromVectors F)
      ++ numbered o.binormals Mesh.AttributeUsageV9.Binormal (VectorDataV8.fromVectors F)
      ++ numbered o.tangents Mesh.AttributeUsageV9.Tangent (VectorDataV8.fromVectors F))
    (numbered o.texture_coordinates Mesh.AttributeUsageV9.TextureCoordinate (VectorDataV8.fromVectors F)
      ++ numbered o.color_sets Mesh.AttributeUsageV9.ColorSet (VectorDataV8.fromColors F)) true
  simp only [List.map_append] at h
  rw [numbered_conv (conv := convV9) (u := .Position) (uu := .Position) (name := fun s _ => cutNul s)
      (f := VectorDataV8.fromPositions) (enc := fun d => (VectorDataV8.fromPositions d).toV10) (fun _ _ _ => rfl),
    numbered_conv (conv := convV9) (u := .Normal) (uu := .Normal) (name := fun s _ => cutNul s)
      (f := VectorDataV8.fromVectors F) (enc := fun d => (VectorDataV8.fromVectors F d).toV10) (fun _ _ _ => rfl),
    numbered_conv (conv := convV9) (u := .Binormal) (uu := .Binormal) (name := fun s _ => cutNul s)
      (f := VectorDataV8.fromVectors F) (enc := fun d => (VectorDataV8.fromVectors F d).toV10) (fun _ _ _ => rfl),
    numbered_conv (conv := convV9) (u := .Tangent) (uu := .Tangent) (name := fun s _ => cutNul s)
      (f := VectorDataV8.fromVectors F) (enc := fun d => (VectorDataV8.fromVectors F d).toV10) (fun _ _ _ => rfl),
    numbered_conv (conv := convV9) (u := .TextureCoordinate) (uu := .TextureCoordinate) (name := fun s _ => cutNul s)
      (f := VectorDataV8.fromVectors F) (enc := fun d => (VectorDataV8.fromVectors F d).toV10) (fun _ _ _ => rfl),
    numbered_conv (conv := convV9) (u := .ColorSet) (uu := .ColorSet) (name := fun s _ => cutNul s)
      (f := VectorDataV8.fromColors F) (enc := fun d => (VectorDataV8.fromColors F d).toV10) (fun _ _ _ => rfl)] at h
  exact h

theorem laidV10 (F : FloatConv) (o : MeshObjectData) : Laid (createAttributesV10 F o) (items0V10 F o) (items1V10 F o) := by
  have h := laid_of createLawsV10 (versioned := .V10) writeBufferV10
    (numbered o.positions Mesh.AttributeUsageV9.Position VectorDataV10.fromPositions
      ++ numbered o.normals Mesh.AttributeUsageV9.Normal (VectorDataV10.fromVectors F)
      ++ numbered o.binormals Mesh.AttributeUsageV9.Binormal (VectorDataV10.fromVectors F)
      ++ numbered o.tangents Mesh.AttributeUsageV9.Tangent (VectorDataV10.fromVectors F))
    (numbered o.texture_coordinates Mesh.AttributeUsageV9.TextureCoordinate (VectorDataV10.fromVectors F)
      ++ numbered o.color_sets Mesh.AttributeUsageV9.ColorSet (VectorDataV10.fromColors F)) false
  simp only [List.map_append] at h
  rw [numbered_conv (conv := convV10) (u := .Position) (uu := .Position) (name := fun s _ => cutNul s)
      (f := VectorDataV10.fromPositions) (enc := fun d => (VectorDataV10.fromPositions d)) (fun _ _ _ => rfl),
    numbered_conv (conv := convV10) (u := .Normal) (uu := .Normal) (name := fun s _ => cutNul s)
      (f := VectorDataV10.fromVectors F) (enc := fun d => (VectorDataV10.fromVectors F d)) (fun _ _ _ => rfl),
    numbered_conv (conv := convV10) (u := .Binormal) (uu := .Binormal) (name := fun s _ => cutNul s)
      (f := VectorDataV10.fromVectors F) (enc := fun d => (VectorDataV10.fromVectors F d)) (fun _ _ _ => rfl),
    numbered_conv (conv := convV10) (u := .Tangent) (uu := .Tangent) (name := fun s _ => cutNul s)
      (f := VectorDataV10.fromVectors F) (enc := fun d => (VectorDataV10.fromVectors F d)) (fun _ _ _ => rfl),
    numbered_conv (conv := convV10) (u := .TextureCoordinate) (uu := .TextureCoordinate) (name := fun s _ => cutNul s)
      (f := VectorDataV10.fromVectors F) (enc := fun d => (VectorDataV10.fromVectors F d)) (fun _ _ _ => rfl),
    numbered_conv (conv := convV10) (u := .ColorSet) (uu := .ColorSet) (name := fun s _ => cutNul s)
      (f := VectorDataV10.fromColors F) (enc := fun d => (VectorDataV10.fromColors F d)) (fun _ _ _ => rfl)] at h
  exact h

/-! ## Lengths -/

theorem itemsOf_length {u : AttributeUsage} {name : String → Nat → String} {enc : VectorData → VectorDataV10}
    (h : ∀ d, (enc d).chunks.length = d.len) {l : List AttributeData} {it : Item} (hit : it ∈ itemsOf u name enc l) :
    it.enc.chunks.length ∈ l.map fun a => a.data.len := by
  simp only [itemsOf, List.mem_map] at hit
  obtain ⟨⟨a, i⟩, ha, rfl⟩ := hit
  simp only [h, List.mem_map]
  exact ⟨a, List.fst_mem_of_mem_zipIdx ha, rfl⟩

theorem len_positionsV10 (d : VectorData) : (VectorDataV10.fromPositions d).chunks.length = d.len := by
  cases d <;> simp [VectorDataV10.fromPositions, VectorDataV10.chunks, VectorData.len]
theorem len_vectorsV10 (F : FloatConv) (d : VectorData) : (VectorDataV10.fromVectors F d).chunks.length = d.len := by
  cases d <;> simp [VectorDataV10.fromVectors, VectorDataV10.chunks, VectorData.len]
theorem len_colorsV10 (F : FloatConv) (d : VectorData) : (VectorDataV10.fromColors F d).chunks.length = d.len := by
  cases d <;> simp [VectorDataV10.fromColors, VectorDataV10.chunks, VectorData.len]
theorem len_positionsV8 (d : VectorData) : (VectorDataV8.fromPositions d).toV10.chunks.length = d.len := by
  cases d <;> simp [VectorDataV8.fromPositions, VectorDataV8.toV10, VectorDataV10.chunks, VectorData.len]
theorem len_vectorsV8 (F : FloatConv) (d : VectorData) : (VectorDataV8.fromVectors F d).toV10.chunks.length = d.len := by
  cases d <;> simp [VectorDataV8.fromVectors, VectorDataV8.toV10, VectorDataV10.chunks, VectorData.len]
theorem len_colorsV8 (F : FloatConv) (d : VectorData) : (VectorDataV8.fromColors F d).toV10.chunks.length = d.len := by
  cases d <;> simp [VectorDataV8.fromColors, VectorDataV8.toV10, VectorDataV10.chunks, VectorData.len]

theorem lengthsV8 (F : FloatConv) (o : MeshObjectData) : ∀ it ∈ items0V8 F o ++ items1V8 F o,
    it.enc.chunks.length ∈ o.lengths := by
  intro it hit
  simp only [items0V8, items1V8, List.mem_append] at hit
  simp only [MeshObjectData.lengths, List.mem_append]
  rcases hit with ((h | h) | h) | h | h
  · have := itemsOf_length len_positionsV8 h; simp [this]
  · have := itemsOf_length (len_vectorsV8 F) h; simp [this]
  · have := itemsOf_length (len_vectorsV8 F) h; simp [this]
  · have := itemsOf_length (len_vectorsV8 F) h; simp [this]
  · have := itemsOf_length (len_colorsV8 F) h; simp [this]

theorem lengthsV9 (F : FloatConv) (o : MeshObjectData) : ∀ it ∈ items0V9 F o ++ items1V9 F o,
    it.enc.chunks.length ∈ o.lengths := by
  intro it hit
  simp only [items0V9, items1V9, List.mem_append] at hit
  simp only [MeshObjectData.lengths, List.mem_append]
  rcases hit with (((h | h) | h) | h) | h | h
  · have := itemsOf_length len_positionsV8 h; simp [this]
  · have := itemsOf_length (len_vectorsV8 F) h; simp [this]
  · have := itemsOf_length (len_vectorsV8 F) h; simp [this]
  · have := itemsOf_length (len_vectorsV8 F) h; simp [this]
  · have := itemsOf_length (len_vectorsV8 F) h; simp [this]
  · have := itemsOf_length (len_colorsV8 F) h; simp [this]

theorem lengthsV10 (F : FloatConv) (o : MeshObjectData) : ∀ it ∈ items0V10 F o ++ items1V10 F o,
    it.enc.chunks.length ∈ o.lengths := by
  intro it hit
  simp only [items0V10, items1V10, List.mem_append] at hit
  simp only [MeshObjectData.lengths, List.mem_append]
  rcases hit with (((h | h) | h) | h) | h | h
  · have := itemsOf_length len_positionsV10 h; simp [this]
  · have := itemsOf_length (len_vectorsV10 F) h; simp [this]
  · have := itemsOf_length (len_vectorsV10 F) h; simp [this]
  · have := itemsOf_length (len_vectorsV10 F) h; simp [this]
  · have := itemsOf_length (len_vectorsV10 F) h; simp [this]
  · have := itemsOf_length (len_colorsV10 F) h; simp [this]

/-! ## Reading one usage -/

theorem readBack_append (F : FloatConv) (l₁ l₂ : List Item) (u : AttributeUsage) :
    readBack F (l₁ ++ l₂) u = readBack F l₁ u ++ readBack F l₂ u := by simp [readBack, List.filter_append]

theorem readBack_itemsOf (F : FloatConv) (u u' : AttributeUsage) (name : String → Nat → String)
    (enc : VectorData → VectorDataV10) (l : List AttributeData) :
    readBack F (itemsOf u name enc l) u' =
      if u = u' then l.zipIdx.map fun (a, i) => ⟨name a.name i, (enc a.data).decode F⟩ else [] := by
  simp only [readBack, itemsOf, List.filter_map]
  split
  · rename_i h
    rw [List.filter_eq_self.mpr (by intro x _; simp [h])]
    simp [Function.comp_def]
  · rename_i h
    rw [List.filter_eq_nil_iff.mpr (by intro x _; simp [h])]
    rfl

end MeshData
end Verif
