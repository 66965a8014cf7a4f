import Verif.Data.AdjData
import Verif.Data.MeshData
import Verif.Float.Ieee
/-!
# Adjacency of mesh objects

Models the constructors of /repo/ssbh_data/src/adj_data.rs which take vertex positions as floats.
-/

namespace Verif.AdjData

/-- `==` of `f32` -/
def floatEq (x y : F32) : Bool := (Ieee.ofBits x).eq (Ieee.ofBits y)

/-- `==` of `[f32; N]`: all components are equal. -/
def arrayEq (p q : Vector F32 n) : Bool := (p.toList.zip q.toList).all fun (x, y) => floatEq x y

/-- `from_vector_data`: /repo/ssbh_data/src/adj_data.rs:109-129 -/
def fromVectorData (meshObjectIndex : Nat) (positions : VectorData) (indices : List UInt32) :
    Except AdjErr AdjEntryData :=
  match positions with
  | .Vector2 v => fromTriangleFaces arrayEq meshObjectIndex v indices
  | .Vector3 v => fromTriangleFaces arrayEq meshObjectIndex v indices
  | .Vector4 v => fromTriangleFaces arrayEq meshObjectIndex v indices

/-- `from_mesh_object`: /repo/ssbh_data/src/adj_data.rs:94-107 -/
def fromMeshObject (meshObjectIndex : Nat) (object : MeshData.MeshObjectData) : Except AdjErr AdjEntryData :=
  match object.positions with
  | [] => .ok ⟨meshObjectIndex, []⟩
  | position :: _ => fromVectorData meshObjectIndex position.data object.vertex_indices

end Verif.AdjData
