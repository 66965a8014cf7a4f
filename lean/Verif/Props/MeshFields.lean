import Verif.Props.Limits
/-!
# What a saved mesh file says about itself

C61: the counts, strides, offsets, sizes and bounds in a saved mesh. They are not fields of `MeshData` and are computed
when saving; the game and other programs rely on them.
-/

namespace Verif
namespace Props
open MeshData

/-! ## Description -/

/-- Ranges which follow each other without gaps from `a` to `b`. -/
def Consecutive : Nat → List (Nat × Nat) → Nat → Prop
  | a, [], b => a = b
  | a, (start, length) :: rest, b => start = a ∧ Consecutive (a + length) rest b

/-- The common number of vectors of the attributes. -/
def vertices (o : MeshObjectData) : Nat :=
  match allAttributes o with
  | [] => 0
  | a :: _ => a.data.len

/-- The number of components of each vector. -/
def componentCount : VectorData → Nat
  | .Vector2 _ => 2
  | .Vector3 _ => 3
  | .Vector4 _ => 4

/-- Bytes of a component. -/
def Precision.bytes : Precision → Nat
  | .single => 4
  | .half => 2
  | .byte => 1

/-- Bytes of a vector of an attribute. -/
def attributeSize (minor : UInt16) (u : AttributeUsage) (d : VectorData) : Nat :=
  componentCount d * (precision minor u (componentCount d)).bytes

/-- The data type of an attribute. -/
def storageType (minor : UInt16) (u : AttributeUsage) (d : VectorData) : Option VectorData.DataType :=
  match componentCount d, precision minor u (componentCount d) with
  | 2, .single => some .Float2
  | 3, .single => some .Float3
  | 4, .single => some .Float4
  | 2, .half => some .HalfFloat2
  | 4, .half => some .HalfFloat4
  | 4, .byte => some .Byte4
  | _, _ => none

/-- The usages which are in vertex buffer 0 or 1. -/
def usagesIn (minor : UInt16) : Nat → List AttributeUsage
  | 0 => if minor = 8 then [.Position, .Normal, .Tangent] else [.Position, .Normal, .Binormal, .Tangent]
  | _ => [.TextureCoordinate, .ColorSet]

/-- The attributes which are in vertex buffer 0 or 1, each with its number among those with the same usage. -/
def attributesIn (minor : UInt16) (buffer : Nat) (o : MeshObjectData) : List (AttributeUsage × Nat × AttributeData) :=
  (usagesIn minor buffer).flatMap fun u => (attributesOf o u).zipIdx.map fun (a, i) => (u, i, a)

/-- Bytes of a vertex in vertex buffer 0 or 1. -/
def vertexSize (minor : UInt16) (buffer : Nat) (o : MeshObjectData) : Nat :=
  ((attributesIn minor buffer o).map fun x => attributeSize minor x.1 x.2.2.data).sum

/-- What a file says about an attribute. Version 1.8 has no names. -/
structure AttributeView where
  usage : AttributeUsage
  type : Option VectorData.DataType
  buffer : UInt32
  offset : UInt32
  subindex : Nat
  names : Option (SsbhString × List SsbhString)

def viewV8 (a : Mesh.AttributeV8) : AttributeView :=
  ⟨usageV8 a.usage, some (dataTypeV8 a.data_type), a.buffer_index, a.buffer_offset, a.subindex.toNat, none⟩

def viewV9 (a : Mesh.AttributeV9) : AttributeView :=
  ⟨usageV9 a.usage, some (dataTypeV8 a.data_type), a.buffer_index, a.buffer_offset, a.subindex.toNat,
    some (a.name, a.attribute_names)⟩

def viewV10 (a : Mesh.AttributeV10) : AttributeView :=
  ⟨usageV9 a.usage, some (dataTypeV10 a.data_type), a.buffer_index, a.buffer_offset, a.subindex.toNat,
    some (a.name, a.attribute_names)⟩

/-- The name of the first tangents and binormals is the name of the texture coordinates which they belong to. The name
from the data is in the list of names. -/
def nameInFile (u : AttributeUsage) (i : Nat) (name : String) : String :=
  match u, i with
  | .Tangent, 0 => "map1"
  | .Binormal, 0 => "map1"
  | .Binormal, 1 => "uvSet"
  | _, _ => name

/-- Attributes follow each other inside a vertex. -/
def attributesFrom (minor : UInt16) (buffer : UInt32) : Nat → List (AttributeUsage × Nat × AttributeData) → List AttributeView
  | _, [] => []
  | offset, (u, i, a) :: rest =>
    { usage := u
      type := storageType minor u a.data
      buffer := buffer
      offset := UInt32.ofNat offset
      subindex := if minor = 8 then i % 2 ^ 32 else i % 2 ^ 64
      names := if minor = 8 then none else some (ssbhText (nameInFile u i a.name), [ssbhText a.name]) } ::
    attributesFrom minor buffer (offset + attributeSize minor u a.data) rest

/-- The points an object is made of: its first positions. -/
def firstPositions (o : MeshObjectData) : List (Vector F32 3) :=
  match o.positions with
  | [] => []
  | a :: _ =>
    match a.data with
    | .Vector2 v => v.map fun e => #v[e[0], e[1], 0]
    | .Vector3 v => v
    | .Vector4 v => v.map fun e => #v[e[0], e[1], e[2]]

/-- What a file says about an object, apart from the places in buffers which depend on the other objects. -/
structure SavedObject {A : Type} (minor : UInt16) (bounds : List (Vector F32 3) → Mesh.BoundingInfo)
    (view : A → AttributeView) (o : MeshObjectData) (f : Mesh.MeshObject A) : Prop where
  name : f.name = ssbhText o.name
  subindex : f.subindex = o.subindex
  parent : f.parent_bone_name = ssbhText o.parent_bone_name
  sort_bias : f.sort_bias = o.sort_bias
  depth_write : f.depth_flags.disable_depth_write = if o.disable_depth_write then 1 else 0
  depth_test : f.depth_flags.disable_depth_test = if o.disable_depth_test then 1 else 0
  vertex_count : f.vertex_count = UInt32.ofNat (vertices o)
  index_count : f.vertex_index_count = UInt32.ofNat o.vertex_indices.length
  constants : f.unk2 = 3 ∧ f.unk8 = 4
  stride0 : f.stride0 = UInt32.ofNat (vertexSize minor 0 o)
  stride1 : f.stride1 = UInt32.ofNat (vertexSize minor 1 o)
  stride2 : f.stride2 = if minor = 10 then 0 else 32
  buffer3 : f.stride3 = 0 ∧ f.vertex_buffer3_offset = 0
  index_type : f.draw_element_type = if ∀ i ∈ o.vertex_indices, i.toNat < 2 ^ 16 then .UnsignedShort else .UnsignedInt
  skinning : f.use_vertex_skinning = if o.bone_influences = [] then 0 else 1
  bounding_info : f.bounding_info = bounds (firstPositions o)
  attributes : f.attributes.map view =
    attributesFrom minor 0 0 (attributesIn minor 0 o) ++ attributesFrom minor 1 0 (attributesIn minor 1 o)

/-- Bytes of an index. -/
def indexSize (o : MeshObjectData) : Nat := if ∀ i ∈ o.vertex_indices, i.toNat < 2 ^ 16 then 2 else 4

/-- What a file says about the influences of an object. -/
structure SavedGroup {Wt : Type} (o : MeshObjectData) (g : Mesh.RiggingGroup Wt) : Prop where
  name : g.mesh_object_name = ssbhText o.name
  subindex : g.mesh_object_subindex = o.subindex
  flag : g.flags.unk1 = 1
  max_influences : ∃ n, (∀ v, influenceCount o.bone_influences v ≤ n) ∧ (∃ v, influenceCount o.bone_influences v = n) ∧
    g.flags.max_influences = UInt8.ofNat n
  bones : g.buffers.map (·.bone_name) = o.bone_influences.map fun i => ssbhText i.bone_name

/-- What a file says about a mesh. -/
structure SavedInner {A Wt : Type} (minor : UInt16) (bounds : List (Vector F32 3) → Mesh.BoundingInfo)
    (view : A → AttributeView) (d : MeshData) (m : Mesh.MeshInner A Wt) : Prop where
  version : d.major_version = 1 ∧ d.minor_version = minor
  name : m.model_name = ssbhText "" ∧ m.unk1 = 0
  bounding_info : m.bounding_info = bounds (d.objects.flatMap firstPositions)
  objects : List.Forall₂ (SavedObject minor bounds view) d.objects m.objects
  /-- There are four buffers and their sizes are listed. -/
  sizes : m.buffer_sizes = m.vertex_buffers.map (fun b => UInt32.ofNat b.length) ∧
    m.polygon_index_size = UInt64.ofNat m.index_buffer.length
  buffers : ∃ b0 b1 b2, m.vertex_buffers = [b0, b1, b2, []] ∧
    Consecutive 0 (m.objects.map fun f => (f.vertex_buffer0_offset.toNat, f.vertex_count.toNat * f.stride0.toNat)) b0.length ∧
    Consecutive 0 (m.objects.map fun f => (f.vertex_buffer1_offset.toNat, f.vertex_count.toNat * f.stride1.toNat)) b1.length ∧
    b2 = List.replicate (if minor = 10 then 0 else 32 * (d.objects.map vertices).sum) 0
  indices : Consecutive 0 ((d.objects.zip m.objects).map fun (o, f) =>
    (f.index_buffer_offset.toNat, f.vertex_index_count.toNat * indexSize o)) m.index_buffer.length
  buffer2 : ∀ k (f : Mesh.MeshObject A), m.objects[k]? = some f →
    f.vertex_buffer2_offset = UInt32.ofNat (32 * ((d.objects.take k).map vertices).sum)
  influences : ∃ gs, gs.Perm m.rigging_buffers ∧ List.Forall₂ SavedGroup d.objects gs

def Saved (bounds : List (Vector F32 3) → Mesh.BoundingInfo) (d : MeshData) : Mesh → Prop
  | .V8 m => SavedInner 8 bounds viewV8 d m
  | .V9 m => SavedInner 9 bounds viewV9 d m
  | .V10 m => SavedInner 10 bounds viewV10 d m

/-! ## Attributes -/

theorem numbered_eq {U V : Type} (as : List AttributeData) (u : AttributeUsage) (u' : U) (f : VectorData → V)
    (g : AttributeUsage × Nat × AttributeData → String × Nat × U × V) (h : ∀ i a, g (u, i, a) = (a.name, i, u', f a.data)) :
    numbered as u' f = (as.zipIdx.map fun (a, i) => (u, i, a)).map g := by
  rw [numbered, List.map_map]
  apply List.map_congr_left
  rintro ⟨a, i⟩ -
  exact (h i a).symm

section
variable {U V D A : Type} {mk : String → Nat → UInt32 → U → D → Nat → A} {dt : V → D} {sz : A → Nat}
  {view : A → AttributeView} {g : AttributeUsage × Nat × AttributeData → String × Nat × U × V} {minor : UInt16}

/-- One attribute. -/
def Makes (minor : UInt16) (mk : String → Nat → UInt32 → U → D → Nat → A) (dt : V → D) (sz : A → Nat)
    (view : A → AttributeView) (g : AttributeUsage × Nat × AttributeData → String × Nat × U × V)
    (x : AttributeUsage × Nat × AttributeData) : Prop :=
  ∀ (b : UInt32) (offset : Nat),
    [view (mk (g x).1 (g x).2.1 b (g x).2.2.1 (dt (g x).2.2.2) offset)] = attributesFrom minor b offset [x] ∧
    sz (mk (g x).1 (g x).2.1 b (g x).2.2.1 (dt (g x).2.2.2) offset) = attributeSize minor x.1 x.2.2.data

theorem buffer_view (b : UInt32) : ∀ (offset : Nat) (l : List (AttributeUsage × Nat × AttributeData)),
    (∀ x ∈ l, Makes minor mk dt sz view g x) →
    ((createBufferAttributes mk dt sz b offset (l.map g)).map (·.1)).map view = attributesFrom minor b offset l ∧
    ((createBufferAttributes mk dt sz b offset (l.map g)).map fun x => sz x.1).sum =
      (l.map fun x => attributeSize minor x.1 x.2.2.data).sum
  | _, [], _ => ⟨rfl, rfl⟩
  | offset, x :: rest, h => by
    obtain ⟨h1, h2⟩ := h x (by simp) b offset
    obtain ⟨r1, r2⟩ := buffer_view b (offset + attributeSize minor x.1 x.2.2.data) rest
      (fun y hy => h y (List.mem_cons_of_mem _ hy))
    simp only [List.map_cons, createBufferAttributes, List.sum_cons, h2]
    simp only [attributesFrom, List.cons.injEq, and_true] at h1
    refine ⟨?_, by rw [r2]⟩
    rw [r1, h1]
    rfl

/-- What is needed of a version. -/
structure VersionLaws (minor : UInt16) (view : A → AttributeView) (ca : MeshObjectData → MeshAttributes A) : Prop where
  stride0 : ∀ o, (ca o).buffer_info.b0.1 = UInt32.ofNat (vertexSize minor 0 o)
  stride1 : ∀ o, (ca o).buffer_info.b1.1 = UInt32.ofNat (vertexSize minor 1 o)
  stride2 : ∀ o, (ca o).buffer_info.b2.1 = 32
  stride3 : ∀ o, (ca o).buffer_info.b3.1 = 0
  write2 : ∀ o base w, writeBuffer (ca o).buffer_info.b2 base w = w
  write3 : ∀ o base w, writeBuffer (ca o).buffer_info.b3 base w = w
  use2 : ∀ o, (ca o).use_buffer2 = decide (minor ≠ 10)
  attributes : ∀ o, (ca o).attributes.map view =
    attributesFrom minor 0 0 (attributesIn minor 0 o) ++ attributesFrom minor 1 0 (attributesIn minor 1 o)

theorem laws_of {versioned : List V → VersionedVectorData} (hv : versioned [] = .V8 [] ∨ versioned [] = .V10 [])
    {ca : MeshObjectData → MeshAttributes A}
    (hca : ∀ o, ca o = createAttributesFromData ((attributesIn minor 0 o).map g) ((attributesIn minor 1 o).map g)
      (decide (minor ≠ 10)) (fun data i => createBufferAttributes mk dt sz i 0 data) sz versioned)
    (hm : ∀ o b, ∀ x ∈ attributesIn minor b o, Makes minor mk dt sz view g x) : VersionLaws minor view ca where
  stride0 o := by rw [hca, vertexSize, ← (buffer_view 0 0 _ (hm o 0)).2]; rfl
  stride1 o := by rw [hca, vertexSize, ← (buffer_view 1 0 _ (hm o 1)).2]; rfl
  stride2 o := by rw [hca]; rfl
  stride3 o := by rw [hca]; rfl
  write2 o base w := by
    rw [hca]
    rcases hv with hv | hv <;> simp [createAttributesFromData, writeBuffer, hv, writeAttributeData]
  write3 o base w := by
    rw [hca]
    rcases hv with hv | hv <;> simp [createAttributesFromData, writeBuffer, hv, writeAttributeData]
  use2 o := by rw [hca]; rfl
  attributes o := by
    rw [hca, ← (buffer_view 0 0 _ (hm o 0)).1, ← (buffer_view 1 0 _ (hm o 1)).1]
    simp [createAttributesFromData]
end

def encV8 (F : FloatConv) : AttributeUsage → VectorData → VectorDataV8
  | .Position => VectorDataV8.fromPositions
  | .ColorSet => VectorDataV8.fromColors F
  | _ => VectorDataV8.fromVectors F

def encV10 (F : FloatConv) : AttributeUsage → VectorData → VectorDataV10
  | .Position => VectorDataV10.fromPositions
  | .ColorSet => VectorDataV10.fromColors F
  | _ => VectorDataV10.fromVectors F

def toUsageV8 : AttributeUsage → Mesh.AttributeUsageV8
  | .Position => .Position
  | .Normal => .Normal
  | .Binormal => .Tangent
  | .Tangent => .Tangent
  | .TextureCoordinate => .TextureCoordinate
  | .ColorSet => .ColorSet

def toUsageV9 : AttributeUsage → Mesh.AttributeUsageV9
  | .Position => .Position
  | .Normal => .Normal
  | .Binormal => .Binormal
  | .Tangent => .Tangent
  | .TextureCoordinate => .TextureCoordinate
  | .ColorSet => .ColorSet

def dataV8 (F : FloatConv) (x : AttributeUsage × Nat × AttributeData) : String × Nat × Mesh.AttributeUsageV8 × VectorDataV8 :=
  (x.2.2.name, x.2.1, toUsageV8 x.1, encV8 F x.1 x.2.2.data)

def dataV9 (F : FloatConv) (x : AttributeUsage × Nat × AttributeData) : String × Nat × Mesh.AttributeUsageV9 × VectorDataV8 :=
  (x.2.2.name, x.2.1, toUsageV9 x.1, encV8 F x.1 x.2.2.data)

def dataV10 (F : FloatConv) (x : AttributeUsage × Nat × AttributeData) : String × Nat × Mesh.AttributeUsageV9 × VectorDataV10 :=
  (x.2.2.name, x.2.1, toUsageV9 x.1, encV10 F x.1 x.2.2.data)

theorem mem_attributesIn {minor : UInt16} {b : Nat} {o : MeshObjectData} {x : AttributeUsage × Nat × AttributeData}
    (h : x ∈ attributesIn minor b o) : x.1 ∈ usagesIn minor b := by
  simp only [attributesIn, List.mem_flatMap, List.mem_map] at h
  obtain ⟨u, hu, a, -, rfl⟩ := h
  exact hu

theorem name_eq (u : AttributeUsage) (i : Nat) (name : String) :
    calculateAttributeName (toUsageV9 u) i name = ssbhText (nameInFile u i name) := by
  have key : ∀ i, i ≠ 0 → i ≠ 1 → calculateAttributeName (toUsageV9 u) i name = ssbhText (nameInFile u i name) := by
    intro i h0 h1
    have : nameInFile u i name = name := by
      unfold nameInFile
      split <;> first | rfl | exact absurd rfl h0 | exact absurd rfl h1
    rw [this]
    simp [calculateAttributeName, h0, h1]
  match i with
  | 0 => cases u <;> rfl
  | 1 => cases u <;> rfl
  | i + 2 => exact key _ (by omega) (by omega)

theorem fieldsV8 (F : FloatConv) : VersionLaws 8 viewV8 (createAttributesV8 F) := by
  refine laws_of (minor := 8) (g := dataV8 F)
    (mk := createAttributeV8) (dt := vectorTypeV8) (sz := fun a => sizeInBytesV8 a.data_type) (versioned := .V8)
    (.inl rfl) ?_ ?_
  · intro o
    simp only [createAttributesV8, attributesIn, usagesIn, if_true, List.flatMap_cons, List.flatMap_nil, List.append_nil,
      List.map_append]
    rw [numbered_eq o.positions .Position Mesh.AttributeUsageV8.Position VectorDataV8.fromPositions (dataV8 F) (fun i a => rfl),
      numbered_eq o.normals .Normal Mesh.AttributeUsageV8.Normal (VectorDataV8.fromVectors F) (dataV8 F) (fun i a => rfl),
      numbered_eq o.tangents .Tangent Mesh.AttributeUsageV8.Tangent (VectorDataV8.fromVectors F) (dataV8 F) (fun i a => rfl),
      numbered_eq o.texture_coordinates .TextureCoordinate Mesh.AttributeUsageV8.TextureCoordinate (VectorDataV8.fromVectors F) (dataV8 F) (fun i a => rfl),
      numbered_eq o.color_sets .ColorSet Mesh.AttributeUsageV8.ColorSet (VectorDataV8.fromColors F) (dataV8 F) (fun i a => rfl)]
    simp only [attributesOf, List.append_assoc]
    rfl
  · rintro o b ⟨u, i, a⟩ hx base offset
    have hu : u ≠ .Binormal := by
      rintro rfl
      have := mem_attributesIn hx
      cases b <;> simp [usagesIn] at this
    have h8 : ¬ (8 : UInt16) = 10 := by decide
    constructor
    · simp only [attributesFrom, viewV8, createAttributeV8, dataV8, List.cons.injEq, AttributeView.mk.injEq, and_true, if_true,
        UInt32.toNat_ofNat']
      refine ⟨?_, ?_⟩
      · cases u <;> first | rfl | exact absurd rfl hu
      · cases u <;> first | exact absurd rfl hu | (simp only [encV8]; cases a.data <;> rfl)
    · simp only [dataV8, createAttributeV8]
      cases u <;> first | exact absurd rfl hu | (simp only [encV8]; cases a.data <;> rfl)

theorem fieldsV9 (F : FloatConv) : VersionLaws 9 viewV9 (createAttributesV9 F) := by
  refine laws_of (minor := 9) (g := dataV9 F)
    (mk := createAttributeV9) (dt := vectorTypeV8) (sz := fun a => sizeInBytesV8 a.data_type) (versioned := .V8)
    (.inl rfl) ?_ ?_
  · intro o
    have h9 : ¬ (9 : UInt16) = 8 := by decide
    simp only [createAttributesV9, attributesIn, usagesIn, h9, if_false, List.flatMap_cons, List.flatMap_nil,
      List.append_nil, List.map_append]
    rw [numbered_eq o.positions .Position Mesh.AttributeUsageV9.Position VectorDataV8.fromPositions (dataV9 F) (fun i a => rfl),
      numbered_eq o.normals .Normal Mesh.AttributeUsageV9.Normal (VectorDataV8.fromVectors F) (dataV9 F) (fun i a => rfl),
      numbered_eq o.binormals .Binormal Mesh.AttributeUsageV9.Binormal (VectorDataV8.fromVectors F) (dataV9 F) (fun i a => rfl),
      numbered_eq o.tangents .Tangent Mesh.AttributeUsageV9.Tangent (VectorDataV8.fromVectors F) (dataV9 F) (fun i a => rfl),
      numbered_eq o.texture_coordinates .TextureCoordinate Mesh.AttributeUsageV9.TextureCoordinate (VectorDataV8.fromVectors F) (dataV9 F) (fun i a => rfl),
      numbered_eq o.color_sets .ColorSet Mesh.AttributeUsageV9.ColorSet (VectorDataV8.fromColors F) (dataV9 F) (fun i a => rfl)]
    simp only [attributesOf, List.append_assoc]
    rfl
  · rintro o b ⟨u, i, a⟩ - base offset
    have h9 : ¬ (9 : UInt16) = 8 := by decide
    constructor
    · simp only [attributesFrom, viewV9, createAttributeV9, dataV9, List.cons.injEq, AttributeView.mk.injEq, and_true, h9, if_false,
        UInt64.toNat_ofNat', name_eq]
      refine ⟨?_, ?_⟩
      · cases u <;> rfl
      · cases u <;> (simp only [encV8]; cases a.data <;> rfl)
    · simp only [dataV9, createAttributeV9]
      cases u <;> (simp only [encV8]; cases a.data <;> rfl)

theorem fieldsV10 (F : FloatConv) : VersionLaws 10 viewV10 (createAttributesV10 F) := by
  refine laws_of (minor := 10) (g := dataV10 F)
    (mk := createAttributeV10) (dt := vectorTypeV10) (sz := fun a => sizeInBytesV10 a.data_type) (versioned := .V10)
    (.inr rfl) ?_ ?_
  · intro o
    have h9 : ¬ (10 : UInt16) = 8 := by decide
    simp only [createAttributesV10, attributesIn, usagesIn, h9, if_false, List.flatMap_cons, List.flatMap_nil,
      List.append_nil, List.map_append]
    rw [numbered_eq o.positions .Position Mesh.AttributeUsageV9.Position VectorDataV10.fromPositions (dataV10 F) (fun i a => rfl),
      numbered_eq o.normals .Normal Mesh.AttributeUsageV9.Normal (VectorDataV10.fromVectors F) (dataV10 F) (fun i a => rfl),
      numbered_eq o.binormals .Binormal Mesh.AttributeUsageV9.Binormal (VectorDataV10.fromVectors F) (dataV10 F) (fun i a => rfl),
      numbered_eq o.tangents .Tangent Mesh.AttributeUsageV9.Tangent (VectorDataV10.fromVectors F) (dataV10 F) (fun i a => rfl),
      numbered_eq o.texture_coordinates .TextureCoordinate Mesh.AttributeUsageV9.TextureCoordinate (VectorDataV10.fromVectors F) (dataV10 F) (fun i a => rfl),
      numbered_eq o.color_sets .ColorSet Mesh.AttributeUsageV9.ColorSet (VectorDataV10.fromColors F) (dataV10 F) (fun i a => rfl)]
    simp only [attributesOf, List.append_assoc]
    rfl
  · rintro o b ⟨u, i, a⟩ - base offset
    have h9 : ¬ (10 : UInt16) = 8 := by decide
    constructor
    · simp only [attributesFrom, viewV10, createAttributeV10, dataV10, List.cons.injEq, AttributeView.mk.injEq, and_true, h9, if_false,
        UInt64.toNat_ofNat', name_eq]
      refine ⟨?_, ?_⟩
      · cases u <;> rfl
      · cases u <;> (simp only [encV10]; cases a.data <;> rfl)
    · simp only [dataV10, createAttributeV10]
      cases u <;> (simp only [encV10]; cases a.data <;> rfl)

/-! ## Cursors -/

/-- Standing at the end. -/
def Full (w : W) : Prop := w.buf.length = w.pos

theorem full_init : Full .init := rfl

theorem Tidy.length_le {w : W} (h : Tidy w) : w.buf.length ≤ w.pos :=
  render_length_le fun p bs hm _ => h.below p bs hm

theorem render_length_append : ∀ (M l : List Ev), (render l).length ≤ (render (M ++ l)).length
  | [], _ => Nat.le_refl _
  | e :: M, l => by
    refine Nat.le_trans (render_length_append M l) ?_
    cases e with
    | data q cs =>
      simp only [List.cons_append, render, putAt_length]
      split <;> omega
    | ptr => exact Nat.le_refl _
    | obj => exact Nat.le_refl _

theorem Full.put {w : W} (h : Full w) (bs : Bytes) : Full (w.put bs) ∧ (w.put bs).buf = w.buf ++ bs := by
  have hb : (w.put bs).buf = w.buf ++ bs := by
    show render (w.put bs).log = _
    rw [W.put_log]
    show putAt w.buf w.pos bs = _
    rw [← h, putAt]
    split
    · simp_all
    · simp
  refine ⟨?_, hb⟩
  rw [Full, hb, W.put_pos, List.length_append, h]

theorem Full.each {w : W} {enc : α → Bytes} {k : Nat} (hk : ∀ x, (enc x).length = k) : ∀ (xs : List α) {w : W}, Full w →
    Full (writeEach enc xs w) ∧ (writeEach enc xs w).pos = w.pos + xs.length * k
  | [], w, h => by simpa [writeEach] using h
  | x :: xs, w, h => by
    obtain ⟨h1, h2⟩ := Full.each (w := w) hk xs (h.put (enc x)).1
    refine ⟨h1, ?_⟩
    rw [writeEach, h2, W.put_pos, hk, List.length_cons, Nat.succ_mul]
    omega

theorem Full.columns {w : W} (ht : Tidy w) (hf : Full w) {items : List Item} {n : Nat}
    (hn : ∀ d ∈ items, d.enc.chunks.length = n) {stride : Nat} (hs : stride = sizeSum Item.size items % 2 ^ 32)
    (hL : (writeColumns Item.chunks Item.size stride w.pos items w).buf.length < 2 ^ 32) :
    Full (writeColumns Item.chunks Item.size stride w.pos items w) ∧
    (writeColumns Item.chunks Item.size stride w.pos items w).pos = w.pos + n * stride ∧ (items ≠ [] → n < 2 ^ 32) := by
  obtain ⟨h1, -, h3, h4, -⟩ := ht.columns (chunks := Item.chunks) (size := Item.size)
    (fun d => d.enc.chunk_length) (fun d => d.enc.size_pos) hn hs (M := []) hL
  have hle := Tidy.length_le h1
  by_cases h0 : 0 < n ∧ items ≠ []
  · obtain ⟨e1, e2, e3⟩ := h4 h0.1 h0.2
    rw [← e1] at h3
    refine ⟨?_, h3, fun _ => ?_⟩
    · rw [Full]
      have : w.pos + n * stride ≤ (writeColumns Item.chunks Item.size stride w.pos items w).buf.length := e3
      omega
    · have h1 : n ≤ n * stride := Nat.le_mul_of_pos_right _ e2
      have : w.pos + n * stride ≤ (writeColumns Item.chunks Item.size stride w.pos items w).buf.length := e3
      omega
  · by_cases hn0 : 0 < n
    · have : items = [] := by
        by_cases hi : items = []
        · exact hi
        · exact absurd ⟨hn0, hi⟩ h0
      subst this
      simp only [sizeSum, List.map_nil, List.sum_nil, Nat.zero_mod] at hs
      subst hs
      exact ⟨hf, rfl, fun h => absurd rfl h⟩
    · have hz : n = 0 := by omega
      subst hz
      refine ⟨?_, by rw [h3]; simp, fun _ => by decide⟩
      have : writeColumns Item.chunks Item.size stride w.pos items w = w := by
        apply writeColumns_nil
        intro d hd
        exact List.length_eq_zero_iff.mp (hn d hd)
      rw [this]
      exact hf

/-! ## Objects -/

theorem vertexCount_vertices {o : MeshObjectData} {n : Nat} (h : o.vertexCount = .ok n) : n = vertices o := by
  obtain ⟨h1, h2⟩ := vertexCount_ok.mp h
  rw [lengths_eq] at h1 h2
  unfold vertices
  cases ha : allAttributes o with
  | nil =>
    rw [ha] at h2
    exact h2 rfl
  | cons a as =>
    rw [ha] at h1
    exact (h1 _ (by simp)).symm

theorem convert_short {is : List UInt32} :
    (match convertIndices is with
      | .UnsignedInt _ => Mesh.DrawElementType.UnsignedInt
      | .UnsignedShort _ => .UnsignedShort) = if ∀ i ∈ is, i.toNat < 2 ^ 16 then .UnsignedShort else .UnsignedInt := by
  unfold convertIndices
  cases h : toU16s is with
  | none =>
    obtain ⟨i, hi, hle⟩ := toU16s_none.mp h
    rw [if_neg (fun hh => by have := hh i hi; omega)]
  | some v =>
    rw [if_pos]
    intro i hi
    by_cases hlt : i.toNat < 2 ^ 16
    · exact hlt
    · have := toU16s_none.mpr ⟨i, hi, by omega⟩
      rw [h] at this
      cases this

theorem toU16s_length : ∀ {is : List UInt32} {v : List UInt16}, toU16s is = some v → v.length = is.length
  | [], v, h => by cases h; rfl
  | i :: is, v, h => by
    simp only [toU16s] at h
    split at h
    · cases hh : toU16s is with
      | none => rw [hh] at h; cases h
      | some v' =>
        rw [hh] at h
        cases h
        simp [toU16s_length hh]
    · cases h

theorem indices_end {o : MeshObjectData} {w : W} (h : Full w) :
    Full (writeVertexIndices (convertIndices o.vertex_indices) w) ∧
    (writeVertexIndices (convertIndices o.vertex_indices) w).pos = w.pos + o.vertex_indices.length * indexSize o := by
  have hs := convert_short (is := o.vertex_indices)
  unfold convertIndices at hs ⊢
  cases hv : toU16s o.vertex_indices with
  | none =>
    rw [hv] at hs
    change Mesh.DrawElementType.UnsignedInt = _ at hs
    obtain ⟨h1, h2⟩ := Full.each (w := w) (enc := fun (i : UInt32) => leBytes 4 i.toNat) (k := 4) (fun x => leBytes_length _ _)
      o.vertex_indices h
    refine ⟨h1, ?_⟩
    have : indexSize o = 4 := by
      unfold indexSize
      split
      · rename_i hc
        rw [if_pos hc] at hs
        exact absurd hs (by decide)
      · rfl
    rw [this]
    exact h2
  | some v =>
    rw [hv] at hs
    change Mesh.DrawElementType.UnsignedShort = _ at hs
    obtain ⟨h1, h2⟩ := Full.each (w := w) (enc := fun (i : UInt16) => leBytes 2 i.toNat) (k := 2) (fun x => leBytes_length _ _) v h
    refine ⟨h1, ?_⟩
    have : indexSize o = 2 := by
      unfold indexSize
      split
      · rfl
      · rename_i hc
        rw [if_neg hc] at hs
        exact absurd hs (by decide)
    rw [this, ← toU16s_length hv]
    exact h2

theorem firstPositions_eq (o : MeshObjectData) : (match o.positions.head? with
    | some a => a.data.toVec3
    | none => []) = firstPositions o := by
  unfold firstPositions
  cases o.positions with
  | nil => rfl
  | cons a as =>
    simp only [List.head?_cons]
    cases a.data <;> rfl

section
variable {A : Type} {minor : UInt16} {view : A → AttributeView} {ca : MeshObjectData → MeshAttributes A}
  {bounds : List (Vector F32 3) → Mesh.BoundingInfo}

/-- What does not depend on other objects. -/
theorem object_saved (hl : VersionLaws minor view ca) {o : MeshObjectData} {s s' : BufferState} {f : Mesh.MeshObject A}
    (h : createMeshObject bounds ca o s = .ok (f, s')) (h3 : s.buffers.b3.pos = 0) :
    SavedObject minor bounds view o f ∧ s'.buffers.b3 = s.buffers.b3 ∧
    f.vertex_buffer2_offset = UInt32.ofNat s.vertexBuffer2Offset ∧
    s'.vertexBuffer2Offset = s.vertexBuffer2Offset + 32 * vertices o ∧
    s'.buffers.b2 = if minor = 10 then s.buffers.b2 else s.buffers.b2.put (List.replicate (32 * vertices o) 0) := by
  simp only [createMeshObject] at h
  split at h
  · cases h
  split at h
  · cases h
  rename_i n hn
  have hv := vertexCount_vertices hn
  split at h
  · cases h
  cases h
  have hu := hl.use2 o
  have h2 := hl.stride2 o
  refine ⟨?_, ?_, rfl, ?_, ?_⟩
  · exact {
      name := rfl
      subindex := rfl
      parent := rfl
      sort_bias := rfl
      depth_write := rfl
      depth_test := rfl
      vertex_count := by rw [hv]
      index_count := rfl
      constants := ⟨rfl, rfl⟩
      stride0 := hl.stride0 o
      stride1 := hl.stride1 o
      stride2 := by
        simp only [hu, h2]
        by_cases hm : minor = 10 <;> simp [hm]
      buffer3 := ⟨hl.stride3 o, by simp only [h3]; rfl⟩
      index_type := convert_short
      skinning := by cases o.bone_influences <;> rfl
      bounding_info := congrArg bounds (firstPositions_eq o)
      attributes := hl.attributes o }
  · by_cases hm : (ca o).use_buffer2 = true <;> simp [hm, writeAttributes, hl.write3]
  · simp only [h2, hv]
    rw [Nat.mul_comm]
    rfl
  · simp only [hu, h2, hv]
    by_cases hm : minor = 10
    · simp [hm, writeAttributes, hl.write2]
    · simp [hm, writeAttributes, hl.write2]

/-- The state of the buffers between objects. -/
structure Good (minor : UInt16) (s : BufferState) : Prop where
  tidy : TidyAll s
  full0 : Full s.buffers.b0
  full1 : Full s.buffers.b1
  fulli : Full s.indexBuffer
  full2 : Full s.buffers.b2
  zeros : s.buffers.b2.buf = List.replicate (if minor = 10 then 0 else s.vertexBuffer2Offset) 0
  none : s.buffers.b3 = .init

theorem good_start (minor : UInt16) : Good minor ⟨⟨.init, .init, .init, .init⟩, 0, .init⟩ :=
  ⟨tidy_start, rfl, rfl, rfl, rfl, by simp [W.init, W.buf, render], rfl⟩

/-- No buffer has 4 GiB. -/
structure Fit (s : BufferState) : Prop where
  b0 : s.buffers.b0.buf.length < 2 ^ 32
  b1 : s.buffers.b1.buf.length < 2 ^ 32
  b2 : s.buffers.b2.buf.length < 2 ^ 32
  bi : s.indexBuffer.buf.length < 2 ^ 32

/-- The ranges of one object. -/
theorem object_ranges [Attribute A] {items0 items1 : MeshObjectData → List Item} (hl : VersionLaws minor view ca)
    (hlaid : ∀ o, Laid (ca o) (items0 o) (items1 o))
    (hlen : ∀ o, ∀ it ∈ items0 o ++ items1 o, it.enc.chunks.length ∈ o.lengths)
    (hany : ∀ o, minor = 10 → allAttributes o ≠ [] → items0 o ++ items1 o ≠ [])
    {o : MeshObjectData} {s s' : BufferState} {f : Mesh.MeshObject A}
    (h : createMeshObject bounds ca o s = .ok (f, s')) (hg : Good minor s) (hfit : Fit s') :
    Good minor s' ∧
    f.vertex_buffer0_offset.toNat = s.buffers.b0.pos ∧
    s'.buffers.b0.pos = s.buffers.b0.pos + f.vertex_count.toNat * f.stride0.toNat ∧
    f.vertex_buffer1_offset.toNat = s.buffers.b1.pos ∧
    s'.buffers.b1.pos = s.buffers.b1.pos + f.vertex_count.toNat * f.stride1.toNat ∧
    f.index_buffer_offset.toNat = s.indexBuffer.pos ∧
    s'.indexBuffer.pos = s.indexBuffer.pos + f.vertex_index_count.toNat * indexSize o := by
  obtain ⟨hs, hb3, -, ho2, hb2⟩ := object_saved hl h (by rw [hg.none]; rfl)
  obtain ⟨-, n, hn, -, -, hattr, hvc, hoff0, hoff1, hst0, hst1, hic, hio, hdt, hb0, hb1, hbi⟩ := createMeshObject_ok h
  have hcount : ∀ it ∈ items0 o ++ items1 o, it.enc.chunks.length = n := fun it hit =>
    (vertexCount_ok.mp hn).1 _ (hlen o it hit)
  have hnv := vertexCount_vertices hn
  have hlaid := hlaid o
  rw [hlaid.write0] at hb0
  rw [hlaid.write1] at hb1
  have hL0 := hfit.b0
  have hL1 := hfit.b1
  rw [hb0] at hL0
  rw [hb1] at hL1
  obtain ⟨f0, p0, n0⟩ := Full.columns hg.tidy.h0 hg.full0 (fun d hd => hcount d (List.mem_append_left _ hd)) hlaid.stride0 hL0
  obtain ⟨f1, p1, n1⟩ := Full.columns hg.tidy.h1 hg.full1 (fun d hd => hcount d (List.mem_append_right _ hd)) hlaid.stride1 hL1
  obtain ⟨fi, pi⟩ := indices_end (o := o) hg.fulli
  have t0 := (hg.tidy.h0.columns (chunks := Item.chunks) (size := Item.size)
    (fun d => d.enc.chunk_length) (fun d => d.enc.size_pos) (fun d hd => hcount d (List.mem_append_left _ hd))
    hlaid.stride0 (M := []) hL0).1
  have t1 := (hg.tidy.h1.columns (chunks := Item.chunks) (size := Item.size)
    (fun d => d.enc.chunk_length) (fun d => d.enc.size_pos) (fun d hd => hcount d (List.mem_append_right _ hd))
    hlaid.stride1 (M := []) hL1).1
  rw [← hb0] at f0 p0 t0
  rw [← hb1] at f1 p1 t1
  rw [← hbi] at fi pi
  -- buffer 2
  have hfull2 : Full s'.buffers.b2 := by
    rw [hb2]
    split
    · exact hg.full2
    · exact (hg.full2.put _).1
  have hzeros : s'.buffers.b2.buf = List.replicate (if minor = 10 then 0 else s'.vertexBuffer2Offset) 0 := by
    rw [hb2, ho2]
    have hz := hg.zeros
    by_cases hm : minor = 10
    · simp only [hm, if_true] at hz ⊢
      exact hz
    · simp only [hm, if_false] at hz ⊢
      rw [(hg.full2.put _).2, hz, List.replicate_append_replicate]
  have hgood : Good minor s' := ⟨⟨t0, t1, hbi ▸ writeVertexIndices_tidy _ hg.tidy.hi⟩, f0, f1, fi, hfull2, hzeros,
    by rw [hb3, hg.none]⟩
  -- numbers fit
  have hn32 : n < 2 ^ 32 := by
    by_cases hz : n = 0
    · omega
    by_cases hm : minor = 10
    · have hne : items0 o ++ items1 o ≠ [] := by
        apply hany o hm
        intro hnil
        rw [vertices, hnil] at hnv
        exact hz hnv
      by_cases h0 : items0 o = []
      · rw [h0, List.nil_append] at hne
        exact n1 hne
      · exact n0 h0
    · have := hfit.b2
      rw [hzeros, if_neg hm, List.length_replicate, ho2] at this
      omega
  have small : ∀ {w w' : W}, Full w → Full w' → w'.buf.length < 2 ^ 32 → w.pos ≤ w'.pos →
      (UInt32.ofNat w.pos).toNat = w.pos := by
    intro w w' hw hw' hlt hle
    rw [UInt32.toNat_ofNat']
    apply Nat.mod_eq_of_lt
    rw [hw'] at hlt
    omega
  have hvn : f.vertex_count.toNat = n := by
    rw [hvc, UInt32.toNat_ofNat']
    exact Nat.mod_eq_of_lt hn32
  have hin : f.vertex_index_count.toNat = o.vertex_indices.length := by
    rw [hic, UInt32.toNat_ofNat']
    apply Nat.mod_eq_of_lt
    have h1 := hfit.bi
    rw [fi, pi] at h1
    have : 2 ≤ indexSize o := by unfold indexSize; split <;> omega
    have : o.vertex_indices.length ≤ o.vertex_indices.length * indexSize o := Nat.le_mul_of_pos_right _ (by omega)
    omega
  rw [hvn, hin, hst0, hst1]
  refine ⟨hgood, ?_, p0, ?_, p1, ?_, pi⟩
  · rw [hoff0]; exact small hg.full0 f0 hfit.b0 (by omega)
  · rw [hoff1]; exact small hg.full1 f1 hfit.b1 (by omega)
  · rw [hio]; exact small hg.fulli fi hfit.bi (by omega)

/-- Buffers only grow. -/
theorem fit_of_grows {s t : BufferState} (h : Grows s t) (h2 : ∃ N, t.buffers.b2.log = N ++ s.buffers.b2.log) (ht : Fit t) :
    Fit s := by
  obtain ⟨⟨a, ha⟩, ⟨b, hb⟩, ⟨c, hc⟩⟩ := h
  obtain ⟨e, he⟩ := h2
  have key : ∀ {w w' : W} {N : List Ev}, w'.log = N ++ w.log → w'.buf.length < 2 ^ 32 → w.buf.length < 2 ^ 32 := by
    intro w w' N hN hlt
    have : (render w'.log).length < 2 ^ 32 := hlt
    rw [hN] at this
    exact Nat.lt_of_le_of_lt (render_length_append N w.log) this
  exact ⟨key ha ht.b0, key hb ht.b1, key he ht.b2, key hc ht.bi⟩

theorem grows_b2 (hl : VersionLaws minor view ca) : ∀ {objects : List MeshObjectData} {s t : BufferState}
    {fs : List (Mesh.MeshObject A)}, s.buffers.b3 = .init → createMeshObjectsFrom bounds ca objects s = .ok (fs, t) →
    ∃ N, t.buffers.b2.log = N ++ s.buffers.b2.log
  | [], s, t, fs, _, h => by cases h; exact ⟨[], rfl⟩
  | o :: rest, s, t, fs, h3, h => by
    simp only [createMeshObjectsFrom] at h
    split at h
    · cases h
    rename_i f s1 ho
    split at h
    · cases h
    rename_i fs2 t2 hos
    cases h
    obtain ⟨-, hb3, -, -, hb2⟩ := object_saved hl ho (by rw [h3]; rfl)
    obtain ⟨N, hN⟩ := grows_b2 hl (by rw [hb3, h3]) hos
    rw [hN, hb2]
    split
    · exact ⟨N, rfl⟩
    · exact ⟨N ++ [.data s.buffers.b2.pos (List.replicate (32 * vertices o) 0)], by simp⟩

theorem objects_saved (hl : VersionLaws minor view ca) : ∀ {objects : List MeshObjectData} {s t : BufferState}
    {fs : List (Mesh.MeshObject A)}, s.buffers.b3 = .init → createMeshObjectsFrom bounds ca objects s = .ok (fs, t) →
    List.Forall₂ (SavedObject minor bounds view) objects fs ∧
    t.vertexBuffer2Offset = s.vertexBuffer2Offset + 32 * (objects.map vertices).sum ∧
    ∀ (k : Nat) (f : Mesh.MeshObject A), fs[k]? = some f →
      f.vertex_buffer2_offset = UInt32.ofNat (s.vertexBuffer2Offset + 32 * ((objects.take k).map vertices).sum)
  | [], s, t, fs, _, h => by cases h; exact ⟨.nil, rfl, by simp⟩
  | o :: rest, s, t, fs, h3, h => by
    simp only [createMeshObjectsFrom] at h
    split at h
    · cases h
    rename_i f s1 ho
    split at h
    · cases h
    rename_i fs2 t2 hos
    cases h
    obtain ⟨hs, hb3, h2, ho2, -⟩ := object_saved hl ho (by rw [h3]; rfl)
    obtain ⟨r1, r2, r3⟩ := objects_saved hl (by rw [hb3, h3]) hos
    refine ⟨.cons hs r1, ?_, ?_⟩
    · rw [r2, ho2, List.map_cons, List.sum_cons]
      omega
    · intro k g hk
      cases k with
      | zero =>
        simp only [List.getElem?_cons_zero, Option.some.injEq] at hk
        subst hk
        simpa using h2
      | succ k =>
        rw [List.getElem?_cons_succ] at hk
        rw [r3 k g hk, ho2, List.take_succ_cons, List.map_cons, List.sum_cons]
        congr 1
        omega

theorem objects_ranges [Attribute A] {items0 items1 : MeshObjectData → List Item} (hl : VersionLaws minor view ca)
    (hlaid : ∀ o, Laid (ca o) (items0 o) (items1 o))
    (hlen : ∀ o, ∀ it ∈ items0 o ++ items1 o, it.enc.chunks.length ∈ o.lengths)
    (hany : ∀ o, minor = 10 → allAttributes o ≠ [] → items0 o ++ items1 o ≠ []) :
    ∀ {objects : List MeshObjectData} {s t : BufferState} {fs : List (Mesh.MeshObject A)},
    createMeshObjectsFrom bounds ca objects s = .ok (fs, t) → Good minor s → Fit t →
    Good minor t ∧
    Consecutive s.buffers.b0.pos (fs.map fun f => (f.vertex_buffer0_offset.toNat, f.vertex_count.toNat * f.stride0.toNat))
      t.buffers.b0.pos ∧
    Consecutive s.buffers.b1.pos (fs.map fun f => (f.vertex_buffer1_offset.toNat, f.vertex_count.toNat * f.stride1.toNat))
      t.buffers.b1.pos ∧
    Consecutive s.indexBuffer.pos ((objects.zip fs).map fun (o, f) =>
      (f.index_buffer_offset.toNat, f.vertex_index_count.toNat * indexSize o)) t.indexBuffer.pos
  | [], s, t, fs, h, hg, _ => by cases h; exact ⟨hg, rfl, rfl, rfl⟩
  | o :: rest, s, t, fs, h, hg, ht => by
    simp only [createMeshObjectsFrom] at h
    split at h
    · cases h
    rename_i f s1 ho
    split at h
    · cases h
    rename_i fs2 t2 hos
    cases h
    have hb3 := (object_saved hl ho (by rw [hg.none]; rfl)).2.1
    have hfit : Fit s1 := fit_of_grows (createMeshObjectsFrom_grows hlaid hos) (grows_b2 hl (by rw [hb3, hg.none]) hos) ht
    obtain ⟨g1, a0, e0, a1, e1, ai, ei⟩ := object_ranges hl hlaid hlen hany ho hg hfit
    obtain ⟨g2, c0, c1, ci⟩ := objects_ranges hl hlaid hlen hany hos g1 ht
    rw [e0] at c0
    rw [e1] at c1
    rw [ei] at ci
    exact ⟨g2, ⟨a0, c0⟩, ⟨a1, c1⟩, ⟨ai, ci⟩⟩

end

/-! ## Influences -/

theorem collect_forall₂ {f : α → Except ε β} : ∀ {l : List α} {r : List β}, collect f l = .ok r →
    List.Forall₂ (fun a b => f a = .ok b) l r
  | [], r, h => by cases h; exact .nil
  | a :: l, r, h => by
    simp only [collect] at h
    split at h
    · cases h
    · split at h
      · cases h
      · rename_i hb _ _ hbs
        cases h
        exact .cons hb (collect_forall₂ hbs)

theorem group_saved {Wt : Type} [Weight Wt] {o : MeshObjectData} {g : Mesh.RiggingGroup Wt}
    (h : createRiggingGroup o = .ok g) : SavedGroup o g := by
  simp only [createRiggingGroup] at h
  cases hb : collect (fun i => (Weight.fromWeights i.vertex_weights).map fun d =>
      (⟨ssbhText i.bone_name, d⟩ : Mesh.BoneBuffer Wt)) o.bone_influences with
  | error e => rw [hb] at h; cases h
  | ok bs =>
    rw [hb] at h
    cases h
    refine ⟨rfl, rfl, rfl, ⟨_, (C43_max o.bone_influences).1, (C43_max o.bone_influences).2, rfl⟩, ?_⟩
    have := collect_forall₂ hb
    show bs.map _ = _
    clear hb
    generalize o.bone_influences = l at this ⊢
    induction this with
    | nil => rfl
    | cons h1 _ ih =>
      obtain ⟨d, -, rfl⟩ := except_map_ok h1
      simp [ih]

theorem groups_saved {Wt : Type} [Weight Wt] {objects : List MeshObjectData} {gs : List (Mesh.RiggingGroup Wt)}
    (h : createRiggingBuffers objects = .ok gs) : ∃ gs', gs'.Perm gs ∧ List.Forall₂ SavedGroup objects gs' := by
  obtain ⟨r, hr, rfl⟩ := except_map_ok h
  exact ⟨r, (sortBy_perm _ _).symm, (collect_forall₂ hr).imp fun _ _ h => group_saved h⟩

/-! ## Meshes -/

theorem inner_saved {A Wt : Type} [Attribute A] [Weight Wt] {minor : UInt16} {view : A → AttributeView}
    {ca : MeshObjectData → MeshAttributes A} {bounds : List (Vector F32 3) → Mesh.BoundingInfo}
    {items0 items1 : MeshObjectData → List Item} (hl : VersionLaws minor view ca)
    (hlaid : ∀ o, Laid (ca o) (items0 o) (items1 o))
    (hlen : ∀ o, ∀ it ∈ items0 o ++ items1 o, it.enc.chunks.length ∈ o.lengths)
    (hany : ∀ o, minor = 10 → allAttributes o ≠ [] → items0 o ++ items1 o ≠ [])
    {d : MeshData} (hver : d.major_version = 1 ∧ d.minor_version = minor) {v : MeshVertexData A} {m : Mesh.MeshInner A Wt}
    (hv : createMeshObjects bounds ca d.objects = .ok v)
    (hm : createMeshInner (bounds (d.objects.flatMap fun o => match o.positions.head? with
      | some a => a.data.toVec3
      | none => [])) v d = .ok m)
    (hb : ∀ b ∈ m.vertex_buffers, b.length < 2 ^ 32) (hi : m.index_buffer.length < 2 ^ 32) :
    SavedInner minor bounds view d m := by
  simp only [createMeshInner] at hm
  split at hm
  · cases hm
  rename_i rigging hr
  cases hm
  simp only [createMeshObjects] at hv
  split at hv
  · cases hv
  rename_i os s hos
  cases hv
  have hfit : Fit s := ⟨hb _ (by simp), hb _ (by simp), hb _ (by simp), hi⟩
  obtain ⟨s1, s2, s3⟩ := objects_saved hl rfl hos
  obtain ⟨g, c0, c1, ci⟩ := objects_ranges hl hlaid hlen hany hos (good_start minor) hfit
  refine ⟨hver, ⟨rfl, rfl⟩, ?_, s1, ⟨rfl, rfl⟩,
    ⟨s.buffers.b0.buf, s.buffers.b1.buf, s.buffers.b2.buf, ?_, ?_, ?_, ?_⟩, ?_, ?_, groups_saved hr⟩
  · exact congrArg bounds (congrArg (d.objects.flatMap ·) (funext firstPositions_eq))
  · rw [g.none]; rfl
  · rw [g.full0]; exact c0
  · rw [g.full1]; exact c1
  · rw [g.zeros, s2]; simp
  · rw [show s.indexBuffer.buf.length = s.indexBuffer.pos from g.fulli]; exact ci
  · intro k f hk
    simpa using s3 k f hk

/-- Everything a saved mesh says about itself is right. -/
theorem C61_fields (F : FloatConv) (bounds : List (Vector F32 3) → Mesh.BoundingInfo) (d : MeshData) (m : Mesh)
    (h : toMesh F bounds d = .ok m) (hs : Small m) : Saved bounds d m := by
  simp only [toMesh] at h
  split at h
  · cases h
  split at h
  · rename_i hver
    split at h
    · cases h
    rename_i v hv
    obtain ⟨mi, hin, rfl⟩ := except_map_ok h
    refine inner_saved (fieldsV10 F) (laidV10 F) (lengthsV10 F) ?_ hver hv hin hs.1 hs.2
    intro o _ ho hnil
    apply ho
    have := congrArg List.length hnil
    simp only [items0V10, items1V10, List.length_append, itemsOf, List.length_map, List.length_zipIdx, List.length_nil] at this
    apply List.eq_nil_of_length_eq_zero
    simp only [allAttributes, usages, List.flatMap_cons, List.flatMap_nil, attributesOf, List.length_append,
      List.length_nil]
    omega
  split at h
  · rename_i hver
    split at h
    · cases h
    rename_i v hv
    obtain ⟨mi, hin, rfl⟩ := except_map_ok h
    exact inner_saved (fieldsV8 F) (laidV8 F) (lengthsV8 F) (fun o hc => absurd hc (by decide)) hver hv hin hs.1 hs.2
  split at h
  · rename_i hver
    split at h
    · cases h
    rename_i v hv
    obtain ⟨mi, hin, rfl⟩ := except_map_ok h
    exact inner_saved (fieldsV9 F) (laidV9 F) (lengthsV9 F) (fun o hc => absurd hc (by decide)) hver hv hin hs.1 hs.2
  · cases h

/-- The same of files of less than 4 GiB. -/
theorem C61_file (F : FloatConv) (bounds : List (Vector F32 3) → Mesh.BoundingInfo) (d : MeshData) (bytes : Bytes)
    (h : d.write F bounds = .ok bytes) (hl : bytes.length < 2 ^ 32) :
    ∃ m, readAs Mesh bytes = .ok m ∧ Saved bounds d m := by
  simp only [MeshData.write] at h
  split at h
  · cases h
  rename_i m hm
  have hr := C01_format_round_trip m bytes (liftWrite_ok.mp h)
  have he : extent m < 2 ^ 32 :=
    Nat.lt_of_le_of_lt (C51_ssbh bytes _ (C08_foreign_rejected bytes m hr).1) hl
  exact ⟨m, hr, C61_fields F bounds d m hm (small_of_extent he)⟩

/-! ## Ranges do not overlap -/

theorem Consecutive.le : ∀ {l : List (Nat × Nat)} {a b : Nat}, Consecutive a l b → a ≤ b ∧ ∀ r ∈ l, a ≤ r.1 ∧ r.1 + r.2 ≤ b
  | [], _, _, h => by cases h; simp
  | (start, length) :: rest, a, b, h => by
    obtain ⟨rfl, h⟩ := h
    obtain ⟨h1, h2⟩ := Consecutive.le h
    refine ⟨by omega, ?_⟩
    intro r hr
    simp only [List.mem_cons] at hr
    rcases hr with rfl | hr
    · simp only; omega
    · have := h2 r hr; omega

/-- Consecutive ranges are disjoint, and every place belongs to one of them. -/
theorem C61_disjoint : ∀ {l : List (Nat × Nat)} {a b : Nat}, Consecutive a l b →
    l.Pairwise (fun r r' => r.1 + r.2 ≤ r'.1) ∧ ∀ p, a ≤ p → p < b → ∃ r ∈ l, r.1 ≤ p ∧ p < r.1 + r.2
  | [], a, b, h => by
    cases h
    refine ⟨.nil, ?_⟩
    intro p h1 h2
    omega
  | (start, length) :: rest, a, b, h => by
    obtain ⟨rfl, h⟩ := h
    obtain ⟨h1, h2⟩ := C61_disjoint h
    refine ⟨.cons (fun r hr => (Consecutive.le h).2 r hr |>.1) h1, ?_⟩
    intro p hp hb
    by_cases hlt : p < start + length
    · exact ⟨_, List.mem_cons_self, hp, hlt⟩
    · obtain ⟨r, hr, hh⟩ := h2 p (by omega) hb
      exact ⟨r, List.mem_cons_of_mem _ hr, hh⟩

/-! ## Examples -/

/-- The conditions of C61 hold for a mesh of each version. -/
example : ∃ m, toMesh exampleConv exampleBounds (exampleMesh 10 "b" "a") = .ok m ∧ Small m ∧
    Saved exampleBounds (exampleMesh 10 "b" "a") m := by
  obtain ⟨m, h, hs⟩ := exists_of_smallResult (r := toMesh exampleConv exampleBounds (exampleMesh 10 "b" "a"))
    (by decide +kernel)
  exact ⟨m, h, hs, C61_fields _ _ _ m h hs⟩

/-- Two vertices of 32 bytes in buffer 0 of version 1.9: positions, normals in half precision, and binormals. -/
example : vertices (exampleObject "a" 1) = 2 ∧ vertexSize 9 0 (exampleObject "a" 1) = 32 ∧
    vertexSize 10 1 (exampleObject "a" 1) = 12 ∧ vertexSize 8 0 (exampleObject "a" 1) = 20 := by decide

/-- The condition of C61_disjoint. -/
example : Consecutive 0 [(0, 8), (8, 0), (8, 4)] 12 := ⟨rfl, rfl, rfl, rfl⟩

end Props
end Verif
