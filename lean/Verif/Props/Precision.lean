import Verif.Props.Limits
import Verif.Float.VertexLaws
/-!
# C54: the precision of vertex data

With the float operations of the code.
-/

namespace Verif.Props
open Verif Ieee MeshData

/-- The components of all vectors in order. -/
def vertexComponents : VectorData → List F32
  | .Vector2 v => v.flatMap (·.toList)
  | .Vector3 v => v.flatMap (·.toList)
  | .Vector4 v => v.flatMap (·.toList)

/-- The number of components of a vector. -/
def vectorSize : VectorData → Nat
  | .Vector2 _ => 2
  | .Vector3 _ => 3
  | .Vector4 _ => 4

/-- What is read (`u`) for a stored component (`v`). Half floats have 11 significant bits; bytes have 255 steps from 0
to 1 and all other values are moved to the nearest end. -/
def Approximates (p : Precision) (v u : F32) : Prop :=
  match p with
  | .single => u = v
  | .half => Finite v → |value v| ≤ 65504 → Finite u ∧ |value u - value v| ≤ max (|value v| / 2 ^ 11) (1 / 2 ^ 25)
  | .byte => Finite v → Finite u ∧ |value u - max 0 (min (value v) 1)| ≤ 1 / 510 + 1 / 2 ^ 23 ∧
      (value v ≤ 0 → value u = 0) ∧ (1 ≤ value v → value u = 1)

theorem approximates (p : Precision) (v : F32) : Approximates p v (p.round conv v) := by
  cases p with
  | single => rfl
  | half =>
    intro hf hb
    rw [finite_iff] at *
    rw [value_eq] at *
    rw [value_eq]
    exact toHalf_fin hf hb
  | byte =>
    intro hf
    rw [finite_iff] at *
    rw [value_eq v, value_eq]
    exact toByte_fin hf

theorem components_mapComponents (f : Nat → F32 → F32) (d : VectorData) :
    vertexComponents (mapComponents f d) = (vertexComponents d).map (f (vectorSize d)) ∧
      vectorSize (mapComponents f d) = vectorSize d := by
  cases d <;> simp only [vertexComponents, mapComponents, vectorSize, List.map_flatMap, List.flatMap_map, and_true] <;>
    exact congrArg (List.flatMap · _) (funext fun a => by rw [Vector.toList_map])

/-- Every attribute of a mesh file is read back with the precision of its format. The formats are those of `precision`:
positions and vectors of three components are exact. -/
theorem C54_vertex_precision (bounds : List (Vector F32 3) → Mesh.BoundingInfo) (d : MeshData) (bytes : Bytes)
    (h : d.write conv bounds = .ok bytes) (hl : bytes.length < 2 ^ 32)
    (hn : d.objects.Pairwise fun a b => ¬ (cutNul a.name = cutNul b.name ∧ a.subindex = b.subindex)) :
    ∃ d', MeshData.read conv bytes = .ok d' ∧ d'.objects.length = d.objects.length ∧
      ∀ (i : Nat) o o', d.objects[i]? = some o → d'.objects[i]? = some o' →
      ∀ usage, ¬ (d.minor_version = 8 ∧ usage = .Binormal) →
        (attributesOf o' usage).length = (attributesOf o usage).length ∧
        ∀ (j : Nat) a a', (attributesOf o usage)[j]? = some a → (attributesOf o' usage)[j]? = some a' →
        vectorSize a'.data = vectorSize a.data ∧
        List.Forall₂ (Approximates (precision d.minor_version usage (vectorSize a.data))) (vertexComponents a.data)
          (vertexComponents a'.data) := by
  refine ⟨_, C45_mesh conv bounds d bytes h hl hn, by simp, ?_⟩
  intro i o o' ho ho' usage hu
  simp only [List.getElem?_map, ho, Option.map_some, Option.some.injEq] at ho'
  subst ho'
  rw [attributesOf_stored]
  unfold stored
  rw [if_neg hu]
  refine ⟨by simp, ?_⟩
  intro j a a' ha ha'
  simp only [List.getElem?_map, List.getElem?_zipIdx, ha, Option.map_some, Option.some.injEq] at ha'
  subst ha'
  obtain ⟨h1, h2⟩ := components_mapComponents (fun n x => (precision d.minor_version usage n).round conv x) a.data
  refine ⟨h2, ?_⟩
  simp only [h1]
  rw [List.forall₂_map_right_iff]
  exact List.forall₂_same.mpr fun v _ => approximates _ v

example : (∃ bytes, (exampleMesh 10 "b" "a").write conv exampleBounds = .ok bytes) ∧
    precision 10 .TextureCoordinate 2 = .half ∧ precision 10 .ColorSet 4 = .byte ∧ precision 10 .Normal 3 = .single :=
  ⟨isOk_iff.mp (by decide +kernel), rfl, rfl, rfl⟩

/-- The bound for half floats is needed: 65520 is read back as infinity. -/
theorem C54_half_overflow : value 0x477ff000 = 65520 ∧ Finite 0x477ff000 ∧
    Precision.round conv 0x477ff000 .half = 0x7f800000 ∧ ¬ Finite 0x7f800000 := by decide +kernel

end Verif.Props
