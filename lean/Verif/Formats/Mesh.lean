import Verif.Lib.File
import Verif.Formats.Vectors
/-!
# Mesh

Types of /repo/ssbh_lib/src/formats/mesh.rs.
Written by tools/gen_formats.py from the Rust definitions.
-/

namespace Verif
namespace Mesh

/-- /repo/ssbh_lib/src/formats/mesh.rs:129-132 -/
structure BoundingSphere where
  center : Vector3
  radius : F32
  deriving DecidableEq, Repr

def BoundingSphere.codec : Codec BoundingSphere :=
  struct 4 (iso (pair Vector3.codec f32)
    (fun v => (v.center, v.radius))
    (fun (center, radius) => ⟨center, radius⟩))

instance : LawC BoundingSphere.codec := by
  unfold BoundingSphere.codec; infer_instance

/-- /repo/ssbh_lib/src/formats/mesh.rs:139-142 -/
structure BoundingVolume where
  min : Vector3
  max : Vector3
  deriving DecidableEq, Repr

def BoundingVolume.codec : Codec BoundingVolume :=
  struct 4 (iso (pair Vector3.codec Vector3.codec)
    (fun v => (v.min, v.max))
    (fun (min, max) => ⟨min, max⟩))

instance : LawC BoundingVolume.codec := by
  unfold BoundingVolume.codec; infer_instance

/-- /repo/ssbh_lib/src/formats/mesh.rs:147-151 -/
structure OrientedBoundingBox where
  center : Vector3
  transform : Matrix3x3
  size : Vector3
  deriving DecidableEq, Repr

def OrientedBoundingBox.codec : Codec OrientedBoundingBox :=
  struct 4 (iso (pair Vector3.codec (pair Matrix3x3.codec Vector3.codec))
    (fun v => (v.center, v.transform, v.size))
    (fun (center, transform, size) => ⟨center, transform, size⟩))

instance : LawC OrientedBoundingBox.codec := by
  unfold OrientedBoundingBox.codec; infer_instance

/-- /repo/ssbh_lib/src/formats/mesh.rs:120-124 -/
structure BoundingInfo where
  bounding_sphere : Mesh.BoundingSphere
  bounding_volume : Mesh.BoundingVolume
  oriented_bounding_box : Mesh.OrientedBoundingBox
  deriving DecidableEq, Repr

def BoundingInfo.codec : Codec BoundingInfo :=
  struct 4 (iso (pair Mesh.BoundingSphere.codec (pair Mesh.BoundingVolume.codec Mesh.OrientedBoundingBox.codec))
    (fun v => (v.bounding_sphere, v.bounding_volume, v.oriented_bounding_box))
    (fun (bounding_sphere, bounding_volume, oriented_bounding_box) => ⟨bounding_sphere, bounding_volume, oriented_bounding_box⟩))

instance : LawC BoundingInfo.codec := by
  unfold BoundingInfo.codec; infer_instance

/-- /repo/ssbh_lib/src/formats/mesh.rs:288-293 -/
abbrev DrawElementType := ReprEnum [0, 1]
def DrawElementType.UnsignedShort : DrawElementType := ⟨0, by decide⟩
def DrawElementType.UnsignedInt : DrawElementType := ⟨1, by decide⟩
def DrawElementType.codec : Codec DrawElementType := reprEnum 4 [0, 1]
instance : LawC DrawElementType.codec := reprEnum_law (by decide) (by decide)

/-- /repo/ssbh_lib/src/formats/mesh.rs:274-280 -/
structure DepthFlags where
  disable_depth_write : UInt8
  disable_depth_test : UInt8
  deriving DecidableEq, Repr

def DepthFlags.codec : Codec DepthFlags :=
  struct 1 (padAfter 2 (iso (pair u8 u8)
    (fun v => (v.disable_depth_write, v.disable_depth_test))
    (fun (disable_depth_write, disable_depth_test) => ⟨disable_depth_write, disable_depth_test⟩)))

instance : LawC DepthFlags.codec := by
  unfold DepthFlags.codec; infer_instance

/-- /repo/ssbh_lib/src/formats/mesh.rs:222-267 -/
structure MeshObject (A : Type) where
  name : SsbhString
  subindex : UInt64
  parent_bone_name : SsbhString
  vertex_count : UInt32
  vertex_index_count : UInt32
  unk2 : UInt32
  vertex_buffer0_offset : UInt32
  vertex_buffer1_offset : UInt32
  vertex_buffer2_offset : UInt32
  vertex_buffer3_offset : UInt32
  stride0 : UInt32
  stride1 : UInt32
  stride2 : UInt32
  stride3 : UInt32
  index_buffer_offset : UInt32
  unk8 : UInt32
  draw_element_type : Mesh.DrawElementType
  use_vertex_skinning : UInt32
  sort_bias : Int32
  depth_flags : Mesh.DepthFlags
  bounding_info : Mesh.BoundingInfo
  attributes : List A
  deriving DecidableEq, Repr

def MeshObject.codec {A : Type} (aC : Codec A) : Codec (MeshObject A) :=
  struct 8 (iso (pair ssbhString (pair u64 (pair ssbhString (pair u32 (pair u32 (pair u32 (pair u32 (pair u32 (pair u32 (pair u32 (pair u32 (pair u32 (pair u32 (pair u32 (pair u32 (pair u32 (pair Mesh.DrawElementType.codec (pair u32 (pair i32 (pair Mesh.DepthFlags.codec (pair Mesh.BoundingInfo.codec (array aC))))))))))))))))))))))
    (fun v => (v.name, v.subindex, v.parent_bone_name, v.vertex_count, v.vertex_index_count, v.unk2, v.vertex_buffer0_offset, v.vertex_buffer1_offset, v.vertex_buffer2_offset, v.vertex_buffer3_offset, v.stride0, v.stride1, v.stride2, v.stride3, v.index_buffer_offset, v.unk8, v.draw_element_type, v.use_vertex_skinning, v.sort_bias, v.depth_flags, v.bounding_info, v.attributes))
    (fun (name, subindex, parent_bone_name, vertex_count, vertex_index_count, unk2, vertex_buffer0_offset, vertex_buffer1_offset, vertex_buffer2_offset, vertex_buffer3_offset, stride0, stride1, stride2, stride3, index_buffer_offset, unk8, draw_element_type, use_vertex_skinning, sort_bias, depth_flags, bounding_info, attributes) => ⟨name, subindex, parent_bone_name, vertex_count, vertex_index_count, unk2, vertex_buffer0_offset, vertex_buffer1_offset, vertex_buffer2_offset, vertex_buffer3_offset, stride0, stride1, stride2, stride3, index_buffer_offset, unk8, draw_element_type, use_vertex_skinning, sort_bias, depth_flags, bounding_info, attributes⟩))

instance {A : Type} {aC : Codec A} [LawF aC] : LawC (MeshObject.codec aC) := by
  unfold MeshObject.codec; infer_instance

/-- /repo/ssbh_lib/src/formats/mesh.rs:157-164 -/
structure RiggingFlags where
  max_influences : UInt8
  unk1 : UInt8
  deriving DecidableEq, Repr

def RiggingFlags.codec : Codec RiggingFlags :=
  struct 1 (padAfter 6 (iso (pair u8 u8)
    (fun v => (v.max_influences, v.unk1))
    (fun (max_influences, unk1) => ⟨max_influences, unk1⟩)))

instance : LawC RiggingFlags.codec := by
  unfold RiggingFlags.codec; infer_instance

/-- /repo/ssbh_lib/src/formats/mesh.rs:169-172 -/
structure BoneBuffer (W2 : Type) where
  bone_name : SsbhString
  data : W2
  deriving DecidableEq, Repr

def BoneBuffer.codec {W2 : Type} (w2C : Codec W2) : Codec (BoneBuffer W2) :=
  struct 8 (iso (pair ssbhString w2C)
    (fun v => (v.bone_name, v.data))
    (fun (bone_name, data) => ⟨bone_name, data⟩))

instance {W2 : Type} {w2C : Codec W2} [LawF w2C] : LawC (BoneBuffer.codec w2C) := by
  unfold BoneBuffer.codec; infer_instance

/-- /repo/ssbh_lib/src/formats/mesh.rs:179-184 -/
structure RiggingGroup (W3 : Type) where
  mesh_object_name : SsbhString
  mesh_object_subindex : UInt64
  flags : Mesh.RiggingFlags
  buffers : List (Mesh.BoneBuffer W3)
  deriving DecidableEq, Repr

def RiggingGroup.codec {W3 : Type} (w3C : Codec W3) : Codec (RiggingGroup W3) :=
  struct 8 (iso (pair ssbhString (pair u64 (pair Mesh.RiggingFlags.codec (array (Mesh.BoneBuffer.codec w3C)))))
    (fun v => (v.mesh_object_name, v.mesh_object_subindex, v.flags, v.buffers))
    (fun (mesh_object_name, mesh_object_subindex, flags, buffers) => ⟨mesh_object_name, mesh_object_subindex, flags, buffers⟩))

instance {W3 : Type} {w3C : Codec W3} [LawF w3C] : LawC (RiggingGroup.codec w3C) := by
  unfold RiggingGroup.codec; infer_instance

/-- /repo/ssbh_lib/src/formats/mesh.rs:56-75 -/
structure MeshInner (A : Type) (W1 : Type) where
  model_name : SsbhString
  bounding_info : Mesh.BoundingInfo
  unk1 : UInt32
  objects : List (Mesh.MeshObject A)
  buffer_sizes : List UInt32
  polygon_index_size : UInt64
  vertex_buffers : List Bytes
  index_buffer : Bytes
  rigging_buffers : List (Mesh.RiggingGroup W1)
  deriving DecidableEq, Repr

def MeshInner.codec {A : Type} {W1 : Type} (aC : Codec A) (w1C : Codec W1) : Codec (MeshInner A W1) :=
  struct 8 (iso (pair ssbhString (pair Mesh.BoundingInfo.codec (pair u32 (pair (array (Mesh.MeshObject.codec aC)) (pair (array u32) (pair u64 (pair (array byteBuffer) (pair byteBuffer (array (Mesh.RiggingGroup.codec w1C))))))))))
    (fun v => (v.model_name, v.bounding_info, v.unk1, v.objects, v.buffer_sizes, v.polygon_index_size, v.vertex_buffers, v.index_buffer, v.rigging_buffers))
    (fun (model_name, bounding_info, unk1, objects, buffer_sizes, polygon_index_size, vertex_buffers, index_buffer, rigging_buffers) => ⟨model_name, bounding_info, unk1, objects, buffer_sizes, polygon_index_size, vertex_buffers, index_buffer, rigging_buffers⟩))

instance {A : Type} {W1 : Type} {aC : Codec A} {w1C : Codec W1} [LawF aC] [LawF w1C] : LawC (MeshInner.codec aC w1C) := by
  unfold MeshInner.codec; infer_instance

/-- /repo/ssbh_lib/src/formats/mesh.rs:362-368 -/
abbrev AttributeUsageV8 := ReprEnum [0, 1, 3, 4, 8]
def AttributeUsageV8.Position : AttributeUsageV8 := ⟨0, by decide⟩
def AttributeUsageV8.Normal : AttributeUsageV8 := ⟨1, by decide⟩
def AttributeUsageV8.Tangent : AttributeUsageV8 := ⟨3, by decide⟩
def AttributeUsageV8.TextureCoordinate : AttributeUsageV8 := ⟨4, by decide⟩
def AttributeUsageV8.ColorSet : AttributeUsageV8 := ⟨8, by decide⟩
def AttributeUsageV8.codec : Codec AttributeUsageV8 := reprEnum 4 [0, 1, 3, 4, 8]
instance : LawC AttributeUsageV8.codec := reprEnum_law (by decide) (by decide)

/-- /repo/ssbh_lib/src/formats/mesh.rs:324-335 -/
abbrev AttributeDataTypeV8 := ReprEnum [820, 1076, 1077, 1079, 1024]
def AttributeDataTypeV8.Float3 : AttributeDataTypeV8 := ⟨820, by decide⟩
def AttributeDataTypeV8.Float4 : AttributeDataTypeV8 := ⟨1076, by decide⟩
def AttributeDataTypeV8.HalfFloat4 : AttributeDataTypeV8 := ⟨1077, by decide⟩
def AttributeDataTypeV8.Float2 : AttributeDataTypeV8 := ⟨1079, by decide⟩
def AttributeDataTypeV8.Byte4 : AttributeDataTypeV8 := ⟨1024, by decide⟩
def AttributeDataTypeV8.codec : Codec AttributeDataTypeV8 := reprEnum 4 [820, 1076, 1077, 1079, 1024]
instance : LawC AttributeDataTypeV8.codec := reprEnum_law (by decide) (by decide)

/-- /repo/ssbh_lib/src/formats/mesh.rs:80-87 -/
structure AttributeV8 where
  usage : Mesh.AttributeUsageV8
  data_type : Mesh.AttributeDataTypeV8
  buffer_index : UInt32
  buffer_offset : UInt32
  subindex : UInt32
  deriving DecidableEq, Repr

def AttributeV8.codec : Codec AttributeV8 :=
  struct 4 (iso (pair Mesh.AttributeUsageV8.codec (pair Mesh.AttributeDataTypeV8.codec (pair u32 (pair u32 u32))))
    (fun v => (v.usage, v.data_type, v.buffer_index, v.buffer_offset, v.subindex))
    (fun (usage, data_type, buffer_index, buffer_offset, subindex) => ⟨usage, data_type, buffer_index, buffer_offset, subindex⟩))

instance : LawC AttributeV8.codec := by
  unfold AttributeV8.codec; infer_instance

/-- /repo/ssbh_lib/src/formats/mesh.rs:205-208 -/
structure VertexWeightV8 where
  vertex_index : UInt32
  vertex_weight : F32
  deriving DecidableEq, Repr

def VertexWeightV8.codec : Codec VertexWeightV8 :=
  struct 4 (iso (pair u32 f32)
    (fun v => (v.vertex_index, v.vertex_weight))
    (fun (vertex_index, vertex_weight) => ⟨vertex_index, vertex_weight⟩))

instance : LawC VertexWeightV8.codec := by
  unfold VertexWeightV8.codec; infer_instance

/-- /repo/ssbh_lib/src/formats/mesh.rs:346-353 -/
abbrev AttributeUsageV9 := ReprEnum [0, 1, 2, 3, 4, 5]
def AttributeUsageV9.Position : AttributeUsageV9 := ⟨0, by decide⟩
def AttributeUsageV9.Normal : AttributeUsageV9 := ⟨1, by decide⟩
def AttributeUsageV9.Binormal : AttributeUsageV9 := ⟨2, by decide⟩
def AttributeUsageV9.Tangent : AttributeUsageV9 := ⟨3, by decide⟩
def AttributeUsageV9.TextureCoordinate : AttributeUsageV9 := ⟨4, by decide⟩
def AttributeUsageV9.ColorSet : AttributeUsageV9 := ⟨5, by decide⟩
def AttributeUsageV9.codec : Codec AttributeUsageV9 := reprEnum 4 [0, 1, 2, 3, 4, 5]
instance : LawC AttributeUsageV9.codec := reprEnum_law (by decide) (by decide)

/-- /repo/ssbh_lib/src/formats/mesh.rs:92-101 -/
structure AttributeV9 where
  usage : Mesh.AttributeUsageV9
  data_type : Mesh.AttributeDataTypeV8
  buffer_index : UInt32
  buffer_offset : UInt32
  subindex : UInt64
  name : SsbhString
  attribute_names : List SsbhString
  deriving DecidableEq, Repr

def AttributeV9.codec : Codec AttributeV9 :=
  struct 8 (iso (pair Mesh.AttributeUsageV9.codec (pair Mesh.AttributeDataTypeV8.codec (pair u32 (pair u32 (pair u64 (pair ssbhString (array ssbhString)))))))
    (fun v => (v.usage, v.data_type, v.buffer_index, v.buffer_offset, v.subindex, v.name, v.attribute_names))
    (fun (usage, data_type, buffer_index, buffer_offset, subindex, name, attribute_names) => ⟨usage, data_type, buffer_index, buffer_offset, subindex, name, attribute_names⟩))

instance : LawC AttributeV9.codec := by
  unfold AttributeV9.codec; infer_instance

/-- /repo/ssbh_lib/src/formats/mesh.rs:302-315 -/
abbrev AttributeDataTypeV10 := ReprEnum [0, 2, 4, 5, 7, 8]
def AttributeDataTypeV10.Float3 : AttributeDataTypeV10 := ⟨0, by decide⟩
def AttributeDataTypeV10.Byte4 : AttributeDataTypeV10 := ⟨2, by decide⟩
def AttributeDataTypeV10.Float4 : AttributeDataTypeV10 := ⟨4, by decide⟩
def AttributeDataTypeV10.HalfFloat4 : AttributeDataTypeV10 := ⟨5, by decide⟩
def AttributeDataTypeV10.Float2 : AttributeDataTypeV10 := ⟨7, by decide⟩
def AttributeDataTypeV10.HalfFloat2 : AttributeDataTypeV10 := ⟨8, by decide⟩
def AttributeDataTypeV10.codec : Codec AttributeDataTypeV10 := reprEnum 4 [0, 2, 4, 5, 7, 8]
instance : LawC AttributeDataTypeV10.codec := reprEnum_law (by decide) (by decide)

/-- /repo/ssbh_lib/src/formats/mesh.rs:106-115 -/
structure AttributeV10 where
  usage : Mesh.AttributeUsageV9
  data_type : Mesh.AttributeDataTypeV10
  buffer_index : UInt32
  buffer_offset : UInt32
  subindex : UInt64
  name : SsbhString
  attribute_names : List SsbhString
  deriving DecidableEq, Repr

def AttributeV10.codec : Codec AttributeV10 :=
  struct 8 (iso (pair Mesh.AttributeUsageV9.codec (pair Mesh.AttributeDataTypeV10.codec (pair u32 (pair u32 (pair u64 (pair ssbhString (array ssbhString)))))))
    (fun v => (v.usage, v.data_type, v.buffer_index, v.buffer_offset, v.subindex, v.name, v.attribute_names))
    (fun (usage, data_type, buffer_index, buffer_offset, subindex, name, attribute_names) => ⟨usage, data_type, buffer_index, buffer_offset, subindex, name, attribute_names⟩))

instance : LawC AttributeV10.codec := by
  unfold AttributeV10.codec; infer_instance

end Mesh

/-- /repo/ssbh_lib/src/formats/mesh.rs:26-41 -/
inductive Mesh where
  | V8 (v : Mesh.MeshInner Mesh.AttributeV8 (List Mesh.VertexWeightV8))
  | V9 (v : Mesh.MeshInner Mesh.AttributeV9 (List Mesh.VertexWeightV8))
  | V10 (v : Mesh.MeshInner Mesh.AttributeV10 Bytes)
  deriving DecidableEq, Repr

/-- /repo/ssbh_lib/src/formats/mesh.rs:26-41, and the magic from /repo/ssbh_lib/src/lib.rs:300-309. -/
def Mesh.format : Format Mesh where
  magic := [0x48, 0x53, 0x45, 0x4d] -- HSEM
  version
    | .V8 _ => (1, 8)
    | .V9 _ => (1, 9)
    | .V10 _ => (1, 10)
  size
    | .V8 v => (struct 8 (padAfterWrite 16 (Mesh.MeshInner.codec Mesh.AttributeV8.codec (array Mesh.VertexWeightV8.codec)))).size v
    | .V9 v => (struct 8 (padAfterWrite 16 (Mesh.MeshInner.codec Mesh.AttributeV9.codec (array Mesh.VertexWeightV8.codec)))).size v
    | .V10 v => (struct 8 (padAfterWrite 16 (Mesh.MeshInner.codec Mesh.AttributeV10.codec byteBuffer))).size v
  write v w :=
    match v with
    | .V8 v => (struct 8 (padAfterWrite 16 (Mesh.MeshInner.codec Mesh.AttributeV8.codec (array Mesh.VertexWeightV8.codec)))).write v w
    | .V9 v => (struct 8 (padAfterWrite 16 (Mesh.MeshInner.codec Mesh.AttributeV9.codec (array Mesh.VertexWeightV8.codec)))).write v w
    | .V10 v => (struct 8 (padAfterWrite 16 (Mesh.MeshInner.codec Mesh.AttributeV10.codec byteBuffer))).write v w
  read major minor b p :=
    if major = 1 ∧ minor = 8 then mapRead .V8 ((struct 8 (padAfterWrite 16 (Mesh.MeshInner.codec Mesh.AttributeV8.codec (array Mesh.VertexWeightV8.codec)))).read b p)
    else if major = 1 ∧ minor = 9 then mapRead .V9 ((struct 8 (padAfterWrite 16 (Mesh.MeshInner.codec Mesh.AttributeV9.codec (array Mesh.VertexWeightV8.codec)))).read b p)
    else if major = 1 ∧ minor = 10 then mapRead .V10 ((struct 8 (padAfterWrite 16 (Mesh.MeshInner.codec Mesh.AttributeV10.codec byteBuffer))).read b p)
    else .error .badTag
  alignAfter
    | .V8 _ => 8
    | .V9 _ => 8
    | .V10 _ => 8

instance : LawFormat Mesh.format where
  magic := rfl
  lawful := by
    intro v
    cases v with
    | V8 v => exact format_variant_law (c := struct 8 (padAfterWrite 16 (Mesh.MeshInner.codec Mesh.AttributeV8.codec (array Mesh.VertexWeightV8.codec)))) (f := Mesh.V8) rfl (fun _ => rfl) (fun _ _ => rfl)
    | V9 v => exact format_variant_law (c := struct 8 (padAfterWrite 16 (Mesh.MeshInner.codec Mesh.AttributeV9.codec (array Mesh.VertexWeightV8.codec)))) (f := Mesh.V9) rfl (fun _ => rfl) (fun _ _ => rfl)
    | V10 v => exact format_variant_law (c := struct 8 (padAfterWrite 16 (Mesh.MeshInner.codec Mesh.AttributeV10.codec byteBuffer))) (f := Mesh.V10) rfl (fun _ => rfl) (fun _ _ => rfl)
  total := by
    intro v w e h
    cases v with
    | V8 v => exact format_variant_total (c := struct 8 (padAfterWrite 16 (Mesh.MeshInner.codec Mesh.AttributeV8.codec (array Mesh.VertexWeightV8.codec)))) (f := Mesh.V8) (fun _ => rfl) h
    | V9 v => exact format_variant_total (c := struct 8 (padAfterWrite 16 (Mesh.MeshInner.codec Mesh.AttributeV9.codec (array Mesh.VertexWeightV8.codec)))) (f := Mesh.V9) (fun _ => rfl) h
    | V10 v => exact format_variant_total (c := struct 8 (padAfterWrite 16 (Mesh.MeshInner.codec Mesh.AttributeV10.codec byteBuffer))) (f := Mesh.V10) (fun _ => rfl) h
  align := by intro v; cases v <;> simp [Mesh.format]
  version := by
    intro major minor b p v p' h
    simp only [Mesh.format] at h
    split at h
    · rename_i hv; obtain ⟨x, rfl⟩ := mapRead_ok h; obtain ⟨rfl, rfl⟩ := hv; rfl
    split at h
    · rename_i hv; obtain ⟨x, rfl⟩ := mapRead_ok h; obtain ⟨rfl, rfl⟩ := hv; rfl
    split at h
    · rename_i hv; obtain ⟨x, rfl⟩ := mapRead_ok h; obtain ⟨rfl, rfl⟩ := hv; rfl
    cases h

end Verif
