import Verif.Lib.Codecs
/-!
# Vector data of vertex attributes

Models /repo/ssbh_data/src/mesh_data/vector_data.rs. The conversions between float formats are a parameter.
-/

namespace Verif

/-- Conversions between `f32` and the smaller component types.
`toHalf` is `f16::from_f32`, `ofHalf` is `f32::from(f16)`, `toByte` is `get_u8_clamped`
(/repo/ssbh_data/src/mesh_data/vector_data.rs:359-361), and `ofByte` is `f32::from(u8)` divided by `255f32`
(/repo/ssbh_data/src/mesh_data/vector_data.rs:149-160). -/
structure FloatConv where
  toHalf : F32 → UInt16
  ofHalf : UInt16 → F32
  toByte : F32 → UInt8
  ofByte : UInt8 → F32

/-- Errors of `mesh_data`, /repo/ssbh_data/src/mesh_data.rs:80-175. `read` and `zeroStride` are
`binrw::Error`s, `boneName` is the text of /repo/ssbh_data/src/mesh_data.rs:1228-1231. -/
inductive MeshErr where
  | duplicateSubindex (name : String) (subindex : UInt64)
  | unsupportedVersion (major minor : UInt16)
  | nonTriangulatedFaces (count : Nat)
  | attributeDataLengthMismatch
  | vertexIndexOutOfRange (index count : Nat)
  | skinWeightVertexIndexExceedsLimit (index : Nat)
  | bufferIndexOutOfRange (index count : Nat)
  | noOffsetOrStride (index : Nat)
  | zeroStride
  | read (e : RErr)
  | boneName
  deriving DecidableEq, Repr

/-- /repo/ssbh_data/src/mesh_data/vector_data.rs:21-25 -/
inductive VectorData where
  | Vector2 (v : List (Vector F32 2))
  | Vector3 (v : List (Vector F32 3))
  | Vector4 (v : List (Vector F32 4))
  deriving DecidableEq, Repr

/-- The union of the data types of all versions, /repo/ssbh_data/src/mesh_data.rs:58-67 -/
inductive VectorData.DataType where
  | Float2
  | Float3
  | Float4
  | HalfFloat2
  | HalfFloat4
  | Byte4
  deriving DecidableEq, Repr

namespace VectorData

/-- /repo/ssbh_data/src/mesh_data/vector_data.rs:38-44 -/
def len : VectorData → Nat
  | Vector2 v => v.length
  | Vector3 v => v.length
  | Vector4 v => v.length

/-- /repo/ssbh_data/src/mesh_data/vector_data.rs:66-73, and `to_glam_vec4_with_w` in lines 109-125 -/
def toVec4WithW (w : F32) : VectorData → List (Vector F32 4)
  | Vector2 v => v.map fun e => #v[e[0], e[1], 0, w]
  | Vector3 v => v.map fun e => #v[e[0], e[1], e[2], w]
  | Vector4 v => v.map fun e => #v[e[0], e[1], e[2], w]

/-- /repo/ssbh_data/src/mesh_data/vector_data.rs:92-107 -/
def toVec3 : VectorData → List (Vector F32 3)
  | Vector2 v => v.map fun e => #v[e[0], e[1], 0]
  | Vector3 v => v
  | Vector4 v => v.map fun e => #v[e[0], e[1], e[2]]

/-- The loop of /repo/ssbh_data/src/mesh_data/vector_data.rs:345-356, from vertex `i` on for `count` vertices. The
numbers are `u64`; with the 32 bit counts, strides and offsets of a mesh they do not overflow. -/
def readVectors (c : Codec α) (toF32 : α → F32) (n : Nat) (b : Bytes) (offset stride : Nat) :
    Nat → Nat → Except MeshErr (List (Vector F32 n))
  | _, 0 => .ok []
  | i, count + 1 =>
    match (arrayN n c).read b (offset + i * stride) with
    | .error e => .error (.read e)
    | .ok (v, _) =>
      match readVectors c toF32 n b offset stride (i + 1) count with
      | .error e => .error e
      | .ok vs => .ok (v.map toF32 :: vs)

/-- /repo/ssbh_data/src/mesh_data/vector_data.rs:324-357 -/
def readVectorData (c : Codec α) (toF32 : α → F32) (n : Nat) (b : Bytes) (count offset stride : Nat) :
    Except MeshErr (List (Vector F32 n)) :=
  if count > 0 ∧ stride = 0 then .error .zeroStride
  else readVectors c toF32 n b offset stride 0 count

/-- /repo/ssbh_data/src/mesh_data/vector_data.rs:127-162 -/
def read (F : FloatConv) (b : Bytes) (count offset stride : Nat) : DataType → Except MeshErr VectorData
  | .Float2 => (readVectorData f32 (fun x => x) 2 b count offset stride).map Vector2
  | .Float3 => (readVectorData f32 (fun x => x) 3 b count offset stride).map Vector3
  | .Float4 => (readVectorData f32 (fun x => x) 4 b count offset stride).map Vector4
  | .HalfFloat2 => (readVectorData u16 F.ofHalf 2 b count offset stride).map Vector2
  | .HalfFloat4 => (readVectorData u16 F.ofHalf 4 b count offset stride).map Vector4
  | .Byte4 => (readVectorData u8 F.ofByte 4 b count offset stride).map Vector4

end VectorData

/-- The loop of /repo/ssbh_data/src/mesh_data/vector_data.rs:393-398 from vertex `i` on: seek and write the components
with `write_t`. A `Cursor<Vec<u8>>` is a `W` whose data pointer is not used. -/
def writeVectors (enc : α → Bytes) (offset stride : Nat) : Nat → List (Vector α n) → W → W
  | _, [], w => w
  | i, v :: vs, w =>
    writeVectors enc offset stride (i + 1) vs ((w.seek (offset + i * stride)).put (v.toList.flatMap enc))

/-- /repo/ssbh_data/src/mesh_data/vector_data.rs:381-400 -/
def writeVectorData (enc : α → Bytes) (vs : List (Vector α n)) (offset stride : Nat) (w : W) : W :=
  writeVectors enc offset stride 0 vs w

/-- /repo/ssbh_data/src/mesh_data/vector_data.rs:363-368. Writing the components one by one or at once gives the
same bytes; here they are written at once. -/
def f32Bytes (x : F32) : Bytes := leBytes 4 x.toNat
/-- /repo/ssbh_data/src/mesh_data/vector_data.rs:374-379 -/
def encF16 (x : UInt16) : Bytes := leBytes 2 x.toNat
/-- /repo/ssbh_data/src/mesh_data/vector_data.rs:370-372 -/
def encU8 (x : UInt8) : Bytes := leBytes 1 x.toNat

/-- /repo/ssbh_data/src/mesh_data/vector_data.rs:172-179. An `f16` is its bits. -/
inductive VectorDataV10 where
  | Float2 (v : List (Vector F32 2))
  | Float3 (v : List (Vector F32 3))
  | Float4 (v : List (Vector F32 4))
  | HalfFloat2 (v : List (Vector UInt16 2))
  | HalfFloat4 (v : List (Vector UInt16 4))
  | Byte4 (v : List (Vector UInt8 4))
  deriving DecidableEq, Repr

/-- /repo/ssbh_data/src/mesh_data/vector_data.rs:182-188 -/
inductive VectorDataV8 where
  | Float2 (v : List (Vector F32 2))
  | Float3 (v : List (Vector F32 3))
  | Float4 (v : List (Vector F32 4))
  | HalfFloat4 (v : List (Vector UInt16 4))
  | Byte4 (v : List (Vector UInt8 4))
  deriving DecidableEq, Repr

namespace VectorDataV10

/-- /repo/ssbh_data/src/mesh_data/vector_data.rs:202-221 -/
def write : VectorDataV10 → Nat → Nat → W → W
  | Float2 v, offset, stride, w => writeVectorData f32Bytes v offset stride w
  | Float3 v, offset, stride, w => writeVectorData f32Bytes v offset stride w
  | Float4 v, offset, stride, w => writeVectorData f32Bytes v offset stride w
  | HalfFloat2 v, offset, stride, w => writeVectorData encF16 v offset stride w
  | HalfFloat4 v, offset, stride, w => writeVectorData encF16 v offset stride w
  | Byte4 v, offset, stride, w => writeVectorData encU8 v offset stride w

/-- /repo/ssbh_data/src/mesh_data/vector_data.rs:223-229 -/
def fromPositions : VectorData → VectorDataV10
  | .Vector2 v => Float2 v
  | .Vector3 v => Float3 v
  | .Vector4 v => Float4 v

/-- /repo/ssbh_data/src/mesh_data/vector_data.rs:231-237, with 300-306 and 316-318 -/
def fromVectors (F : FloatConv) : VectorData → VectorDataV10
  | .Vector2 v => HalfFloat2 (v.map (·.map F.toHalf))
  | .Vector3 v => Float3 v
  | .Vector4 v => HalfFloat4 (v.map (·.map F.toHalf))

/-- /repo/ssbh_data/src/mesh_data/vector_data.rs:239-245, with 300-322 -/
def fromColors (F : FloatConv) : VectorData → VectorDataV10
  | .Vector2 v => HalfFloat2 (v.map (·.map F.toHalf))
  | .Vector3 v => Float3 v
  | .Vector4 v => Byte4 (v.map (·.map F.toByte))

end VectorDataV10

namespace VectorDataV8

/-- /repo/ssbh_data/src/mesh_data/vector_data.rs:259-273 -/
def write : VectorDataV8 → Nat → Nat → W → W
  | Float2 v, offset, stride, w => writeVectorData f32Bytes v offset stride w
  | Float3 v, offset, stride, w => writeVectorData f32Bytes v offset stride w
  | Float4 v, offset, stride, w => writeVectorData f32Bytes v offset stride w
  | HalfFloat4 v, offset, stride, w => writeVectorData encF16 v offset stride w
  | Byte4 v, offset, stride, w => writeVectorData encU8 v offset stride w

/-- /repo/ssbh_data/src/mesh_data/vector_data.rs:275-281 -/
def fromPositions : VectorData → VectorDataV8
  | .Vector2 v => Float2 v
  | .Vector3 v => Float3 v
  | .Vector4 v => Float4 v

/-- /repo/ssbh_data/src/mesh_data/vector_data.rs:283-289 -/
def fromVectors (F : FloatConv) : VectorData → VectorDataV8
  | .Vector2 v => Float2 v
  | .Vector3 v => Float3 v
  | .Vector4 v => HalfFloat4 (v.map (·.map F.toHalf))

/-- /repo/ssbh_data/src/mesh_data/vector_data.rs:291-297 -/
def fromColors (F : FloatConv) : VectorData → VectorDataV8
  | .Vector2 v => Float2 v
  | .Vector3 v => Float3 v
  | .Vector4 v => Byte4 (v.map (·.map F.toByte))

end VectorDataV8
end Verif
