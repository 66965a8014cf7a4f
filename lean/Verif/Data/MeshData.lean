import Verif.Formats.Mesh
import Verif.Data.Text
import Verif.Data.VectorData
/-!
# MeshData

Models /repo/ssbh_data/src/mesh_data.rs and /repo/ssbh_data/src/mesh_data/mesh_attributes.rs. Bounding volumes are
computed by the `geometry_tools` crate and are a parameter, as are the float conversions (`FloatConv`). Smooth normals
and tangents are left out.
-/

namespace Verif

/-- /repo/ssbh_data/src/mesh_data.rs:587-590 -/
structure MeshData.AttributeData where
  name : String
  data : VectorData
  deriving DecidableEq, Repr

/-- /repo/ssbh_data/src/mesh_data.rs:181-184 -/
structure MeshData.VertexWeight where
  vertex_index : UInt32
  vertex_weight : F32
  deriving DecidableEq, Repr

/-- /repo/ssbh_data/src/mesh_data.rs:474-477 -/
structure MeshData.BoneInfluence where
  bone_name : String
  vertex_weights : List MeshData.VertexWeight
  deriving DecidableEq, Repr

/-- /repo/ssbh_data/src/mesh_data.rs:558-581 -/
structure MeshData.MeshObjectData where
  name : String
  subindex : UInt64
  parent_bone_name : String
  sort_bias : Int32
  disable_depth_write : Bool
  disable_depth_test : Bool
  vertex_indices : List UInt32
  positions : List MeshData.AttributeData
  normals : List MeshData.AttributeData
  binormals : List MeshData.AttributeData
  tangents : List MeshData.AttributeData
  texture_coordinates : List MeshData.AttributeData
  color_sets : List MeshData.AttributeData
  bone_influences : List MeshData.BoneInfluence
  deriving DecidableEq, Repr

/-- /repo/ssbh_data/src/mesh_data.rs:484-488 -/
structure MeshData where
  major_version : UInt16
  minor_version : UInt16
  objects : List MeshData.MeshObjectData
  deriving DecidableEq, Repr

namespace MeshData

/-- /repo/ssbh_data/src/mesh_data.rs:71-78 -/
inductive AttributeUsage where
  | Position
  | Normal
  | Binormal
  | Tangent
  | TextureCoordinate
  | ColorSet
  deriving DecidableEq, Repr

/-- /repo/ssbh_data/src/mesh_data.rs:1245-1250 -/
structure MeshAttribute where
  name : String
  index : Nat
  offset : Nat
  data_type : VectorData.DataType
  deriving DecidableEq, Repr

/-! ## The attributes of each version -/

/-- /repo/ssbh_data/src/mesh_data.rs:186-197. Every tag is one of the six. -/
def dataTypeV10 (t : Mesh.AttributeDataTypeV10) : VectorData.DataType :=
  if t = .Float3 then .Float3
  else if t = .Byte4 then .Byte4
  else if t = .HalfFloat4 then .HalfFloat4
  else if t = .HalfFloat2 then .HalfFloat2
  else if t = .Float4 then .Float4
  else .Float2

/-- /repo/ssbh_data/src/mesh_data.rs:199-209. Every tag is one of the five. -/
def dataTypeV8 (t : Mesh.AttributeDataTypeV8) : VectorData.DataType :=
  if t = .Float3 then .Float3
  else if t = .Float2 then .Float2
  else if t = .Byte4 then .Byte4
  else if t = .HalfFloat4 then .HalfFloat4
  else .Float4

/-- /repo/ssbh_data/src/mesh_data.rs:855-866 -/
def sizeInBytesV10 (t : Mesh.AttributeDataTypeV10) : Nat :=
  if t = .Float3 then 4 * 3
  else if t = .Byte4 then 1 * 4
  else if t = .HalfFloat4 then 2 * 4
  else if t = .HalfFloat2 then 2 * 2
  else if t = .Float4 then 4 * 4
  else 4 * 2

/-- /repo/ssbh_data/src/mesh_data.rs:872-882 -/
def sizeInBytesV8 (t : Mesh.AttributeDataTypeV8) : Nat :=
  if t = .Float3 then 4 * 3
  else if t = .HalfFloat4 then 2 * 4
  else if t = .Float2 then 4 * 2
  else if t = .Byte4 then 1 * 4
  else 4 * 4

/-- /repo/ssbh_data/src/mesh_data/vector_data.rs:191-200 -/
def vectorTypeV10 : VectorDataV10 → Mesh.AttributeDataTypeV10
  | .Float2 _ => .Float2
  | .Float3 _ => .Float3
  | .Float4 _ => .Float4
  | .HalfFloat4 _ => .HalfFloat4
  | .Byte4 _ => .Byte4
  | .HalfFloat2 _ => .HalfFloat2

/-- /repo/ssbh_data/src/mesh_data/vector_data.rs:249-257 -/
def vectorTypeV8 : VectorDataV8 → Mesh.AttributeDataTypeV8
  | .Float2 _ => .Float2
  | .Float3 _ => .Float3
  | .Float4 _ => .Float4
  | .HalfFloat4 _ => .HalfFloat4
  | .Byte4 _ => .Byte4

/-- /repo/ssbh_data/src/mesh_data.rs:285-293 -/
def usageV8 (u : Mesh.AttributeUsageV8) : AttributeUsage :=
  if u = .Position then .Position
  else if u = .Normal then .Normal
  else if u = .Tangent then .Tangent
  else if u = .TextureCoordinate then .TextureCoordinate
  else .ColorSet

/-- /repo/ssbh_data/src/mesh_data.rs:306-315,327-336 -/
def usageV9 (u : Mesh.AttributeUsageV9) : AttributeUsage :=
  if u = .Position then .Position
  else if u = .Normal then .Normal
  else if u = .Binormal then .Binormal
  else if u = .Tangent then .Tangent
  else if u = .TextureCoordinate then .TextureCoordinate
  else .ColorSet

/-- The trait `Attribute`, /repo/ssbh_data/src/mesh_data.rs:256-262 -/
class Attribute (A : Type) where
  toAttribute : A → MeshAttribute
  usage : A → AttributeUsage

/-- /repo/ssbh_data/src/mesh_data.rs:269-275 -/
def nameV8 (u : Mesh.AttributeUsageV8) (subindex : Nat) : String :=
  if u = .Position then "Position" ++ toString subindex
  else if u = .Normal then "Normal" ++ toString subindex
  else if u = .Tangent then "Tangent" ++ toString subindex
  else if u = .TextureCoordinate then "TextureCoordinate" ++ toString subindex
  else "colorSet" ++ toString subindex

/-- /repo/ssbh_data/src/mesh_data.rs:265-294 -/
instance : Attribute Mesh.AttributeV8 where
  toAttribute a := {
    name := nameV8 a.usage a.subindex.toNat
    index := a.buffer_index.toNat
    offset := a.buffer_offset.toNat
    data_type := dataTypeV8 a.data_type }
  usage a := usageV8 a.usage

/-- /repo/ssbh_data/src/mesh_data.rs:1265-1271 with `unwrap_or("")` -/
def firstName (names : List SsbhString) : String := (names.head?.bind ssbhToStr).getD ""

/-- /repo/ssbh_data/src/mesh_data.rs:296-316 -/
instance : Attribute Mesh.AttributeV9 where
  toAttribute a := {
    name := firstName a.attribute_names
    index := a.buffer_index.toNat
    offset := a.buffer_offset.toNat
    data_type := dataTypeV8 a.data_type }
  usage a := usageV9 a.usage

/-- /repo/ssbh_data/src/mesh_data.rs:317-337 -/
instance : Attribute Mesh.AttributeV10 where
  toAttribute a := {
    name := firstName a.attribute_names
    index := a.buffer_index.toNat
    offset := a.buffer_offset.toNat
    data_type := dataTypeV10 a.data_type }
  usage a := usageV9 a.usage

/-! ## Skin weights -/

/-- The trait `Weight`, /repo/ssbh_data/src/mesh_data.rs:339-345 -/
class Weight (Wt : Type) where
  fromWeights : List VertexWeight → Except MeshErr Wt
  toWeights : Wt → List VertexWeight

/-- /repo/ssbh_data/src/mesh_data.rs:838-848 -/
def createVertexWeightsV8 (ws : List VertexWeight) : List Mesh.VertexWeightV8 :=
  ws.map fun w => ⟨w.vertex_index, w.vertex_weight⟩

/-- /repo/ssbh_data/src/mesh_data.rs:819-836 -/
def createVertexWeightsV10 : List VertexWeight → Except MeshErr Bytes
  | [] => .ok []
  | w :: ws =>
    if w.vertex_index.toNat < 2 ^ 16 then
      match createVertexWeightsV10 ws with
      | .error e => .error e
      | .ok bytes => .ok (leBytes 2 w.vertex_index.toNat ++ leBytes 4 w.vertex_weight.toNat ++ bytes)
    else .error (.skinWeightVertexIndexExceedsLimit w.vertex_index.toNat)

/-- The loop of /repo/ssbh_data/src/mesh_data.rs:368-379, which stops when less than 6 bytes (a
`VertexWeightV10`, /repo/ssbh_lib/src/formats/mesh.rs:212-215) are left. -/
def readWeightsV10 : Bytes → List VertexWeight
  | a :: b :: c :: d :: e :: f :: rest =>
    ⟨UInt32.ofNat (fromLe [a, b]), UInt32.ofNat (fromLe [c, d, e, f])⟩ :: readWeightsV10 rest
  | _ => []

/-- /repo/ssbh_data/src/mesh_data.rs:347-361 -/
instance : Weight (List Mesh.VertexWeightV8) where
  fromWeights ws := .ok (createVertexWeightsV8 ws)
  toWeights ws := ws.map fun w => ⟨w.vertex_index, w.vertex_weight⟩

/-- /repo/ssbh_data/src/mesh_data.rs:363-380 -/
instance : Weight Bytes where
  fromWeights := createVertexWeightsV10
  toWeights := readWeightsV10

/-! ## Reading -/

/-- /repo/ssbh_data/src/mesh_data.rs:1273-1284 -/
def readData (c : Codec α) (toU32 : α → UInt32) (b : Bytes) (count offset : Nat) : Except MeshErr (List UInt32) :=
  match readElems c count b offset with
  | .error e => .error (.read e)
  | .ok (vs, _) => .ok (vs.map toU32)

/-- /repo/ssbh_data/src/mesh_data.rs:212-224 -/
def readVertexIndices (indexBuffer : Bytes) (o : Mesh.MeshObject A) : Except MeshErr (List UInt32) :=
  if o.draw_element_type = .UnsignedShort then
    readData u16 (fun x => x.toUInt32) indexBuffer o.vertex_index_count.toNat o.index_buffer_offset.toNat
  else
    readData u32 (fun x => x) indexBuffer o.vertex_index_count.toNat o.index_buffer_offset.toNat

/-- /repo/ssbh_data/src/mesh_data.rs:404-428 -/
def calculateOffsetStride (a : MeshAttribute) (o : Mesh.MeshObject A) : Except MeshErr (Nat × Nat) :=
  match a.index with
  | 0 => .ok (a.offset + o.vertex_buffer0_offset.toNat, o.stride0.toNat)
  | 1 => .ok (a.offset + o.vertex_buffer1_offset.toNat, o.stride1.toNat)
  | 2 => .ok (a.offset + o.vertex_buffer2_offset.toNat, o.stride2.toNat)
  | 3 => .ok (a.offset + o.vertex_buffer3_offset.toNat, o.stride3.toNat)
  | i => .error (.noOffsetOrStride i)

/-- /repo/ssbh_data/src/mesh_data.rs:382-402 -/
def readAttributeData (F : FloatConv) (vertexBuffers : List Bytes) (o : Mesh.MeshObject A) (a : MeshAttribute) :
    Except MeshErr VectorData :=
  match vertexBuffers[a.index]? with
  | none => .error (.bufferIndexOutOfRange a.index vertexBuffers.length)
  | some buffer =>
    match calculateOffsetStride a o with
    | .error e => .error e
    | .ok (offset, stride) => VectorData.read F buffer o.vertex_count.toNat offset stride a.data_type

/-- A loop with `?` and `push`. -/
def collect (f : α → Except ε β) : List α → Except ε (List β)
  | [] => .ok []
  | x :: xs =>
    match f x with
    | .error e => .error e
    | .ok y =>
      match collect f xs with
      | .error e => .error e
      | .ok ys => .ok (y :: ys)

/-- /repo/ssbh_data/src/mesh_data.rs:1252-1263 -/
def getAttributes [Attribute A] (o : Mesh.MeshObject A) (usage : AttributeUsage) : List MeshAttribute :=
  (o.attributes.filter fun a => Attribute.usage a = usage).map Attribute.toAttribute

/-- /repo/ssbh_data/src/mesh_data.rs:430-444 -/
def readAttributes [Attribute A] (F : FloatConv) (vertexBuffers : List Bytes) (o : Mesh.MeshObject A)
    (usage : AttributeUsage) : Except MeshErr (List AttributeData) :=
  collect (fun a => (readAttributeData F vertexBuffers o a).map fun d => ⟨a.name, d⟩) (getAttributes o usage)

/-- /repo/ssbh_data/src/mesh_data.rs:1224-1243 -/
def readInfluences {Wt : Type} [Weight Wt] (g : Mesh.RiggingGroup Wt) : Except MeshErr (List BoneInfluence) :=
  collect (fun b =>
    match ssbhToStr b.bone_name with
    | none => .error .boneName
    | some name => .ok ⟨name, Weight.toWeights b.data⟩) g.buffers

/-- /repo/ssbh_data/src/mesh_data.rs:447-468 -/
def readRiggingData {Wt : Type} [Weight Wt] (groups : List (Mesh.RiggingGroup Wt)) (name : String) (subindex : UInt64) :
    Except MeshErr (List BoneInfluence) :=
  (collect readInfluences (groups.filter fun g =>
    ssbhToStr g.mesh_object_name = some name ∧ g.mesh_object_subindex = subindex)).map List.flatten

/-- One step of the loop of /repo/ssbh_data/src/mesh_data.rs:632-674 -/
def readMeshObject [Attribute A] {Wt : Type} [Weight Wt] (F : FloatConv) (mesh : Mesh.MeshInner A Wt) (o : Mesh.MeshObject A) :
    Except MeshErr MeshObjectData := do
  let name := toStringLossy o.name
  let indices ← readVertexIndices mesh.index_buffer o
  let positions ← readAttributes F mesh.vertex_buffers o .Position
  let normals ← readAttributes F mesh.vertex_buffers o .Normal
  let tangents ← readAttributes F mesh.vertex_buffers o .Tangent
  let binormals ← readAttributes F mesh.vertex_buffers o .Binormal
  let textureCoordinates ← readAttributes F mesh.vertex_buffers o .TextureCoordinate
  let colorSets ← readAttributes F mesh.vertex_buffers o .ColorSet
  let influences ← readRiggingData mesh.rigging_buffers name o.subindex
  return {
    name := name
    subindex := o.subindex
    parent_bone_name := toStringLossy o.parent_bone_name
    vertex_indices := indices
    positions := positions
    normals := normals
    tangents := tangents
    binormals := binormals
    texture_coordinates := textureCoordinates
    color_sets := colorSets
    bone_influences := influences
    sort_bias := o.sort_bias
    disable_depth_test := o.depth_flags.disable_depth_test != 0
    disable_depth_write := o.depth_flags.disable_depth_write != 0 }

/-- /repo/ssbh_data/src/mesh_data.rs:632-674 -/
def readMeshObjectsInner [Attribute A] {Wt : Type} [Weight Wt] (F : FloatConv) (mesh : Mesh.MeshInner A Wt) :
    Except MeshErr (List MeshObjectData) :=
  collect (readMeshObject F mesh) mesh.objects

/-- /repo/ssbh_data/src/mesh_data.rs:514-525,624-630 -/
def ofMesh (F : FloatConv) : Mesh → Except MeshErr MeshData
  | .V8 m => (readMeshObjectsInner F m).map fun os => ⟨1, 8, os⟩
  | .V9 m => (readMeshObjectsInner F m).map fun os => ⟨1, 9, os⟩
  | .V10 m => (readMeshObjectsInner F m).map fun os => ⟨1, 10, os⟩

/-! ## Attributes and buffer data of an object -/

/-- `[T; 4]`, one for every vertex buffer. -/
structure Four (α : Type) where
  b0 : α
  b1 : α
  b2 : α
  b3 : α
  deriving DecidableEq, Repr

/-- /repo/ssbh_data/src/mesh_data/vector_data.rs:166-169 -/
inductive VersionedVectorData where
  | V8 (v : List VectorDataV8)
  | V10 (v : List VectorDataV10)
  deriving DecidableEq, Repr

/-- /repo/ssbh_data/src/mesh_data/mesh_attributes.rs:15-19 -/
structure MeshAttributes (A : Type) where
  buffer_info : Four (UInt32 × VersionedVectorData)
  attributes : List A
  use_buffer2 : Bool

/-- /repo/ssbh_data/src/mesh_data/mesh_attributes.rs:218-245; `offset` is the state of `scan`. -/
def createBufferAttributes (createAttribute : String → Nat → UInt32 → U → D → Nat → A) (dataType : V → D)
    (sizeInBytes : A → Nat) (bufferIndex : UInt32) : Nat → List (String × Nat × U × V) → List (A × V)
  | _, [] => []
  | offset, (name, i, usage, data) :: rest =>
    let a := createAttribute name i bufferIndex usage (dataType data) offset
    (a, data) :: createBufferAttributes createAttribute dataType sizeInBytes bufferIndex (offset + sizeInBytes a) rest

/-- /repo/ssbh_data/src/mesh_data/mesh_attributes.rs:21-61 -/
def createAttributesFromData (buffer0 buffer1 : List (String × Nat × U × V)) (useBuffer2 : Bool)
    (create : List (String × Nat × U × V) → UInt32 → List (A × V)) (sizeInBytes : A → Nat)
    (versioned : List V → VersionedVectorData) : MeshAttributes A where
  buffer_info := {
    b0 := (UInt32.ofNat ((create buffer0 0).map fun x => sizeInBytes x.1).sum, versioned ((create buffer0 0).map (·.2)))
    b1 := (UInt32.ofNat ((create buffer1 1).map fun x => sizeInBytes x.1).sum, versioned ((create buffer1 1).map (·.2)))
    b2 := (32, versioned [])
    b3 := (0, versioned []) }
  attributes := (create buffer0 0).map (·.1) ++ (create buffer1 1).map (·.1)
  use_buffer2 := useBuffer2

/-- /repo/ssbh_data/src/mesh_data/mesh_attributes.rs:142-153 -/
def numbered (attributes : List AttributeData) (usage : U) (f : VectorData → V) : List (String × Nat × U × V) :=
  attributes.zipIdx.map fun (a, i) => (a.name, i, usage, f a.data)

/-- /repo/ssbh_data/src/mesh_data/mesh_attributes.rs:286-301 -/
def createAttributeV8 (_name : String) (subindex : Nat) (bufferIndex : UInt32) (usage : Mesh.AttributeUsageV8)
    (dataType : Mesh.AttributeDataTypeV8) (offset : Nat) : Mesh.AttributeV8 :=
  ⟨usage, dataType, bufferIndex, UInt32.ofNat offset, UInt32.ofNat subindex⟩

/-- /repo/ssbh_data/src/mesh_data/mesh_attributes.rs:341-349 -/
def calculateAttributeName (usage : Mesh.AttributeUsageV9) (subindex : Nat) (name : String) : SsbhString :=
  if usage = .Tangent ∧ subindex = 0 then ssbhText "map1"
  else if usage = .Binormal ∧ subindex = 0 then ssbhText "map1"
  else if usage = .Binormal ∧ subindex = 1 then ssbhText "uvSet"
  else ssbhText name

/-- /repo/ssbh_data/src/mesh_data/mesh_attributes.rs:303-320 -/
def createAttributeV9 (name : String) (subindex : Nat) (bufferIndex : UInt32) (usage : Mesh.AttributeUsageV9)
    (dataType : Mesh.AttributeDataTypeV8) (offset : Nat) : Mesh.AttributeV9 :=
  ⟨usage, dataType, bufferIndex, UInt32.ofNat offset, UInt64.ofNat subindex,
    calculateAttributeName usage subindex name, [ssbhText name]⟩

/-- /repo/ssbh_data/src/mesh_data/mesh_attributes.rs:322-339 -/
def createAttributeV10 (name : String) (subindex : Nat) (bufferIndex : UInt32) (usage : Mesh.AttributeUsageV9)
    (dataType : Mesh.AttributeDataTypeV10) (offset : Nat) : Mesh.AttributeV10 :=
  ⟨usage, dataType, bufferIndex, UInt32.ofNat offset, UInt64.ofNat subindex,
    calculateAttributeName usage subindex name, [ssbhText name]⟩

/-- /repo/ssbh_data/src/mesh_data/mesh_attributes.rs:65-88, with 197-216 and 247-258 -/
def createAttributesV8 (F : FloatConv) (o : MeshObjectData) : MeshAttributes Mesh.AttributeV8 :=
  createAttributesFromData
    (numbered o.positions Mesh.AttributeUsageV8.Position VectorDataV8.fromPositions
      ++ numbered o.normals Mesh.AttributeUsageV8.Normal (VectorDataV8.fromVectors F)
      ++ numbered o.tangents Mesh.AttributeUsageV8.Tangent (VectorDataV8.fromVectors F))
    (numbered o.texture_coordinates Mesh.AttributeUsageV8.TextureCoordinate (VectorDataV8.fromVectors F)
      ++ numbered o.color_sets Mesh.AttributeUsageV8.ColorSet (VectorDataV8.fromColors F))
    true
    (fun data i => createBufferAttributes createAttributeV8 vectorTypeV8 (fun a => sizeInBytesV8 a.data_type) i 0 data)
    (fun a => sizeInBytesV8 a.data_type) .V8

/-- /repo/ssbh_data/src/mesh_data/mesh_attributes.rs:90-114, with 176-195 and 260-271 -/
def createAttributesV9 (F : FloatConv) (o : MeshObjectData) : MeshAttributes Mesh.AttributeV9 :=
  createAttributesFromData
    (numbered o.positions Mesh.AttributeUsageV9.Position VectorDataV8.fromPositions
      ++ numbered o.normals Mesh.AttributeUsageV9.Normal (VectorDataV8.fromVectors F)
      ++ numbered o.binormals Mesh.AttributeUsageV9.Binormal (VectorDataV8.fromVectors F)
      ++ numbered o.tangents Mesh.AttributeUsageV9.Tangent (VectorDataV8.fromVectors F))
    (numbered o.texture_coordinates Mesh.AttributeUsageV9.TextureCoordinate (VectorDataV8.fromVectors F)
      ++ numbered o.color_sets Mesh.AttributeUsageV9.ColorSet (VectorDataV8.fromColors F))
    true
    (fun data i => createBufferAttributes createAttributeV9 vectorTypeV8 (fun a => sizeInBytesV8 a.data_type) i 0 data)
    (fun a => sizeInBytesV8 a.data_type) .V8

/-- /repo/ssbh_data/src/mesh_data/mesh_attributes.rs:116-140, with 155-174 and 273-284 -/
def createAttributesV10 (F : FloatConv) (o : MeshObjectData) : MeshAttributes Mesh.AttributeV10 :=
  createAttributesFromData
    (numbered o.positions Mesh.AttributeUsageV9.Position VectorDataV10.fromPositions
      ++ numbered o.normals Mesh.AttributeUsageV9.Normal (VectorDataV10.fromVectors F)
      ++ numbered o.binormals Mesh.AttributeUsageV9.Binormal (VectorDataV10.fromVectors F)
      ++ numbered o.tangents Mesh.AttributeUsageV9.Tangent (VectorDataV10.fromVectors F))
    (numbered o.texture_coordinates Mesh.AttributeUsageV9.TextureCoordinate (VectorDataV10.fromVectors F)
      ++ numbered o.color_sets Mesh.AttributeUsageV9.ColorSet (VectorDataV10.fromColors F))
    false
    (fun data i => createBufferAttributes createAttributeV10 vectorTypeV10 (fun a => sizeInBytesV10 a.data_type) i 0 data)
    (fun a => sizeInBytesV10 a.data_type) .V10

/-- The `try_fold`s of /repo/ssbh_data/src/mesh_data/mesh_attributes.rs:361-379, with `write` and the size of a data. -/
def writeAttributeData (write : V → Nat → Nat → W → W) (size : V → Nat) (stride : Nat) : Nat → List V → W → W
  | _, [], w => w
  | offset, d :: ds, w => writeAttributeData write size stride (offset + size d) ds (write d offset stride w)

/-- The loop body of /repo/ssbh_data/src/mesh_data/mesh_attributes.rs:351-383 -/
def writeBuffer (info : UInt32 × VersionedVectorData) (base : Nat) (w : W) : W :=
  match info.2 with
  | .V8 ds => writeAttributeData VectorDataV8.write (fun d => sizeInBytesV8 (vectorTypeV8 d)) info.1.toNat base ds w
  | .V10 ds => writeAttributeData VectorDataV10.write (fun d => sizeInBytesV10 (vectorTypeV10 d)) info.1.toNat base ds w

/-- /repo/ssbh_data/src/mesh_data/mesh_attributes.rs:351-383. Writing to a `Cursor<Vec<u8>>` does not fail. -/
def writeAttributes (info : Four (UInt32 × VersionedVectorData)) (buffers : Four W) (offsets : Four Nat) : Four W where
  b0 := writeBuffer info.b0 offsets.b0 buffers.b0
  b1 := writeBuffer info.b1 offsets.b1 buffers.b1
  b2 := writeBuffer info.b2 offsets.b2 buffers.b2
  b3 := writeBuffer info.b3 offsets.b3 buffers.b3

/-! ## Objects -/

/-- /repo/ssbh_data/src/mesh_data.rs:592-622 -/
def MeshObjectData.vertexCount (o : MeshObjectData) : Except MeshErr Nat :=
  let sizes := (o.positions.map fun a => a.data.len) ++ (o.normals.map fun a => a.data.len)
    ++ (o.binormals.map fun a => a.data.len) ++ (o.tangents.map fun a => a.data.len)
    ++ (o.texture_coordinates.map fun a => a.data.len) ++ (o.color_sets.map fun a => a.data.len)
  match sizes with
  | [] => .ok 0
  | size :: rest => if rest.all (· == size) then .ok size else .error .attributeDataLengthMismatch

/-- /repo/ssbh_data/src/mesh_data.rs:891-894 -/
inductive VertexIndices where
  | UnsignedInt (v : List UInt32)
  | UnsignedShort (v : List UInt16)
  deriving DecidableEq, Repr

/-- `indices.iter().map(|i| u16::try_from(*i)).collect()` as an option -/
def toU16s : List UInt32 → Option (List UInt16)
  | [] => some []
  | i :: is => if i.toNat < 2 ^ 16 then (toU16s is).map (i.toUInt16 :: ·) else none

/-- /repo/ssbh_data/src/mesh_data.rs:1070-1077 -/
def convertIndices (indices : List UInt32) : VertexIndices :=
  match toU16s indices with
  | some v => .UnsignedShort v
  | none => .UnsignedInt indices

/-- One `write_all` for every element. -/
def writeEach (enc : α → Bytes) : List α → W → W
  | [], w => w
  | x :: xs, w => writeEach enc xs (w.put (enc x))

/-- /repo/ssbh_data/src/mesh_data.rs:1050-1068 -/
def writeVertexIndices (indices : VertexIndices) (w : W) : W :=
  match indices with
  | .UnsignedInt v => writeEach (fun (i : UInt32) => leBytes 4 i.toNat) v w
  | .UnsignedShort v => writeEach (fun (i : UInt16) => leBytes 2 i.toNat) v w

/-- `iter().max()` -/
def maxIndex : List UInt32 → Option UInt32
  | [] => none
  | i :: is =>
    match maxIndex is with
    | none => some i
    | some j => if i.toNat ≤ j.toNat then some j else some i

/-- The mutable arguments of /repo/ssbh_data/src/mesh_data.rs:938-944 -/
structure BufferState where
  buffers : Four W
  vertexBuffer2Offset : Nat
  indexBuffer : W

/-- /repo/ssbh_data/src/mesh_data.rs:938-1048. `bounds` is `calculate_bounding_info`. -/
def createMeshObject (bounds : List (Vector F32 3) → Mesh.BoundingInfo) (createAttributes : MeshObjectData → MeshAttributes A)
    (data : MeshObjectData) (s : BufferState) : Except MeshErr (Mesh.MeshObject A × BufferState) :=
  if data.vertex_indices.length % 3 ≠ 0 then .error (.nonTriangulatedFaces data.vertex_indices.length)
  else
    match data.vertexCount with
    | .error e => .error e
    | .ok vertexCount =>
      match (maxIndex data.vertex_indices).filter fun i => i.toNat ≥ vertexCount with
      | some i => .error (.vertexIndexOutOfRange i.toNat vertexCount)
      | none =>
        let vertexIndices := convertIndices data.vertex_indices
        let attributes := createAttributes data
        let info := attributes.buffer_info
        let buffers := writeAttributes info s.buffers
          ⟨s.buffers.b0.pos, s.buffers.b1.pos, s.vertexBuffer2Offset, s.buffers.b3.pos⟩
        let buffers := if attributes.use_buffer2 then
          { buffers with b2 := buffers.b2.put (List.replicate (info.b2.1.toNat * vertexCount) 0) } else buffers
        .ok ({
          name := ssbhText data.name
          subindex := data.subindex
          parent_bone_name := ssbhText data.parent_bone_name
          vertex_count := UInt32.ofNat vertexCount
          vertex_index_count := UInt32.ofNat data.vertex_indices.length
          unk2 := 3
          vertex_buffer0_offset := UInt32.ofNat s.buffers.b0.pos
          vertex_buffer1_offset := UInt32.ofNat s.buffers.b1.pos
          vertex_buffer2_offset := UInt32.ofNat s.vertexBuffer2Offset
          vertex_buffer3_offset := UInt32.ofNat s.buffers.b3.pos
          stride0 := info.b0.1
          stride1 := info.b1.1
          stride2 := if attributes.use_buffer2 then info.b2.1 else 0
          stride3 := info.b3.1
          index_buffer_offset := UInt32.ofNat s.indexBuffer.pos
          unk8 := 4
          draw_element_type := match vertexIndices with
            | .UnsignedInt _ => .UnsignedInt
            | .UnsignedShort _ => .UnsignedShort
          use_vertex_skinning := if data.bone_influences.isEmpty then 0 else 1
          sort_bias := data.sort_bias
          depth_flags := ⟨if data.disable_depth_write then 1 else 0, if data.disable_depth_test then 1 else 0⟩
          bounding_info := bounds (match data.positions.head? with
            | some a => a.data.toVec3
            | none => [])
          attributes := attributes.attributes },
          { buffers := buffers
            vertexBuffer2Offset := s.vertexBuffer2Offset + vertexCount * info.b2.1.toNat
            indexBuffer := writeVertexIndices vertexIndices s.indexBuffer })

/-- The loop of /repo/ssbh_data/src/mesh_data.rs:914-924 -/
def createMeshObjectsFrom (bounds : List (Vector F32 3) → Mesh.BoundingInfo)
    (createAttributes : MeshObjectData → MeshAttributes A) :
    List MeshObjectData → BufferState → Except MeshErr (List (Mesh.MeshObject A) × BufferState)
  | [], s => .ok ([], s)
  | data :: rest, s =>
    match createMeshObject bounds createAttributes data s with
    | .error e => .error e
    | .ok (o, s) =>
      match createMeshObjectsFrom bounds createAttributes rest s with
      | .error e => .error e
      | .ok (os, s) => .ok (o :: os, s)

/-- /repo/ssbh_data/src/mesh_data.rs:884-888 -/
structure MeshVertexData (A : Type) where
  mesh_objects : List (Mesh.MeshObject A)
  vertex_buffers : List Bytes
  index_buffer : Bytes

/-- /repo/ssbh_data/src/mesh_data.rs:896-936 -/
def createMeshObjects (bounds : List (Vector F32 3) → Mesh.BoundingInfo)
    (createAttributes : MeshObjectData → MeshAttributes A) (objects : List MeshObjectData) :
    Except MeshErr (MeshVertexData A) :=
  match createMeshObjectsFrom bounds createAttributes objects ⟨⟨.init, .init, .init, .init⟩, 0, .init⟩ with
  | .error e => .error e
  | .ok (os, s) =>
    .ok ⟨os, [s.buffers.b0.buf, s.buffers.b1.buf, s.buffers.b2.buf, s.buffers.b3.buf], s.indexBuffer.buf⟩

/-! ## Rigging -/

/-- `*entry += 1` of a hash map, kept as a list of its entries. -/
def countUp (v : UInt32) : List (UInt32 × Nat) → List (UInt32 × Nat)
  | [] => [(v, 1)]
  | (k, n) :: rest => if k = v then (k, n + 1) :: rest else (k, n) :: countUp v rest

/-- The elements of a hash set after inserting all of them. -/
def distinct : List UInt32 → List UInt32
  | [] => []
  | v :: vs => if v ∈ distinct vs then distinct vs else v :: distinct vs

/-- /repo/ssbh_data/src/mesh_data.rs:759-775. The second argument, a capacity, has no effect. -/
def calculateMaxInfluences (influences : List BoneInfluence) : Nat :=
  let counts := influences.foldl (fun counts i =>
    (distinct (i.vertex_weights.map (·.vertex_index))).foldl (fun counts v => countUp v counts) counts) []
  (counts.map (·.2)).foldl max 0

/-- The loop body of /repo/ssbh_data/src/mesh_data.rs:782-810 -/
def createRiggingGroup {Wt : Type} [Weight Wt] (o : MeshObjectData) : Except MeshErr (Mesh.RiggingGroup Wt) :=
  (collect (fun i => (Weight.fromWeights i.vertex_weights).map fun d => (⟨ssbhText i.bone_name, d⟩ : Mesh.BoneBuffer Wt))
    o.bone_influences).map fun buffers => {
      mesh_object_name := ssbhText o.name
      mesh_object_subindex := o.subindex
      flags := ⟨UInt8.ofNat (calculateMaxInfluences o.bone_influences), 1⟩
      buffers := buffers }

/-- Order of the sort keys: `String`s are compared by bytes, then the subindex. -/
def keyLe (a b : Bytes × UInt64) : Bool :=
  if a.1 = b.1 then a.2.toNat ≤ b.2.toNat else decide (a.1.map (·.toNat) < b.1.map (·.toNat))

/-- Insert in front of the first element which is not smaller. -/
def insertBy (le : α → α → Bool) (x : α) : List α → List α
  | [] => [x]
  | y :: ys => if le x y then x :: y :: ys else y :: insertBy le x ys

/-- A stable sort. All stable sorts, in particular `slice::sort_by_key`, give the same result. -/
def sortBy (le : α → α → Bool) : List α → List α
  | [] => []
  | x :: xs => insertBy le x (sortBy le xs)

/-- The sort key of a group, /repo/ssbh_data/src/mesh_data.rs:814 -/
def groupKey {Wt : Type} (g : Mesh.RiggingGroup Wt) : Bytes × UInt64 :=
  (textBytes (toStringLossy g.mesh_object_name), g.mesh_object_subindex)

/-- /repo/ssbh_data/src/mesh_data.rs:777-817 -/
def createRiggingBuffers {Wt : Type} [Weight Wt] (objects : List MeshObjectData) : Except MeshErr (List (Mesh.RiggingGroup Wt)) :=
  (collect createRiggingGroup objects).map (sortBy fun a b => keyLe (groupKey a) (groupKey b))

/-! ## Meshes -/

/-- The loop of /repo/ssbh_data/src/mesh_data.rs:741-757; `seen` are the pairs inserted before. -/
def validateFrom (seen : List (String × UInt64)) : List MeshObjectData → Except MeshErr Unit
  | [] => .ok ()
  | o :: os =>
    if (o.name, o.subindex) ∈ seen then .error (.duplicateSubindex o.name o.subindex)
    else validateFrom ((o.name, o.subindex) :: seen) os

/-- /repo/ssbh_data/src/mesh_data.rs:741-757 -/
def validateSubindices (objects : List MeshObjectData) : Except MeshErr Unit := validateFrom [] objects

/-- `pad_using(4, |_| 0)` -/
def padTo4 (l : List UInt32) : List UInt32 := l ++ List.replicate (4 - l.length) 0

/-- The name "". -/
def noName : SsbhString := ssbhText ""

/-- /repo/ssbh_data/src/mesh_data.rs:712-739 -/
def createMeshInner {Wt : Type} [Weight Wt] (bounds : Mesh.BoundingInfo) (v : MeshVertexData A) (data : MeshData) :
    Except MeshErr (Mesh.MeshInner A Wt) :=
  match createRiggingBuffers data.objects with
  | .error e => .error e
  | .ok rigging => .ok {
      model_name := noName
      bounding_info := bounds
      unk1 := 0
      objects := v.mesh_objects
      buffer_sizes := padTo4 (v.vertex_buffers.map fun b => UInt32.ofNat b.length)
      polygon_index_size := UInt64.ofNat v.index_buffer.length
      vertex_buffers := v.vertex_buffers
      index_buffer := v.index_buffer
      rigging_buffers := rigging }

/-- /repo/ssbh_data/src/mesh_data.rs:676-710 -/
def toMesh (F : FloatConv) (bounds : List (Vector F32 3) → Mesh.BoundingInfo) (data : MeshData) : Except MeshErr Mesh :=
  match validateSubindices data.objects with
  | .error e => .error e
  | .ok () =>
    let allPositions := data.objects.flatMap fun o =>
      match o.positions.head? with
      | some a => a.data.toVec3
      | none => []
    if data.major_version = 1 ∧ data.minor_version = 10 then
      match createMeshObjects bounds (createAttributesV10 F) data.objects with
      | .error e => .error e
      | .ok v => (createMeshInner (bounds allPositions) v data).map .V10
    else if data.major_version = 1 ∧ data.minor_version = 8 then
      match createMeshObjects bounds (createAttributesV8 F) data.objects with
      | .error e => .error e
      | .ok v => (createMeshInner (bounds allPositions) v data).map .V8
    else if data.major_version = 1 ∧ data.minor_version = 9 then
      match createMeshObjects bounds (createAttributesV9 F) data.objects with
      | .error e => .error e
      | .ok v => (createMeshInner (bounds allPositions) v data).map .V9
    else .error (.unsupportedVersion data.major_version data.minor_version)

/-! ## Transforms -/

/-- /repo/ssbh_data/src/mesh_data.rs:1080-1106. `mul` is the matrix times a vector. -/
def transformInner (mul : Vector F32 4 → Vector F32 4) (w : F32) (data : VectorData) : VectorData :=
  let points := (data.toVec4WithW w).map mul
  match data with
  | .Vector2 _ => .Vector2 (points.map fun p => #v[p[0], p[1]])
  | .Vector3 _ => .Vector3 (points.map fun p => #v[p[0], p[1], p[2]])
  | .Vector4 original => .Vector4 (original.zipWith (fun old new => #v[new[0], new[1], new[2], old[3]]) points)

/-- /repo/ssbh_data/src/mesh_data.rs:1134-1136; `0x3f800000` is `1.0`. -/
def transformPoints (mul : Vector F32 4 → Vector F32 4) (data : VectorData) : VectorData :=
  transformInner mul 0x3f800000 data

/-- /repo/ssbh_data/src/mesh_data.rs:1164-1166 -/
def transformVectors (mul : Vector F32 4 → Vector F32 4) (data : VectorData) : VectorData :=
  transformInner mul 0 data

end MeshData
end Verif
