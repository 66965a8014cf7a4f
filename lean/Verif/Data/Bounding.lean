import Verif.Formats.VectorOps
import Verif.Formats.Mesh
/-!
# Bounding volumes

`calculate_bounding_info` of /repo/ssbh_data/src/mesh_data.rs. The box and the sphere of a list of points are computed by the
crate `geometry_tools`, they are parameters.
-/

namespace Verif

/-- `+`, `-` and `/` of `f32`, component by component for `glam::Vec3A`. -/
def fadd (x y : F32) : F32 := Ieee.toBits ((Ieee.ofBits x).add (Ieee.ofBits y))
def fsub (x y : F32) : F32 := Ieee.toBits ((Ieee.ofBits x).sub (Ieee.ofBits y))
def fdiv (x y : F32) : F32 := Ieee.toBits ((Ieee.ofBits x).div (Ieee.ofBits y))

namespace Vector3
def add (a b : Vector3) : Vector3 := new (fadd a.x b.x) (fadd a.y b.y) (fadd a.z b.z)
def sub (a b : Vector3) : Vector3 := new (fsub a.x b.x) (fsub a.y b.y) (fsub a.z b.z)
def div (a : Vector3) (s : F32) : Vector3 := new (fdiv a.x s) (fdiv a.y s) (fdiv a.z s)
end Vector3

/-- `geometry_tools::bounding`: center and radius of a sphere around points, and the corners of a box around points. -/
structure Geometry where
  sphere : List (Vector F32 3) → Vector4
  aabb : List (Vector F32 3) → Vector3 × Vector3

namespace MeshData

/-- /repo/ssbh_data/src/mesh_data.rs:1198-1223. The constant is `2.0`. -/
def calculateBoundingInfo (G : Geometry) (positions : List (Vector F32 3)) : Mesh.BoundingInfo :=
  let sphere := G.sphere positions
  let (aabb_min, aabb_max) := G.aabb positions
  let obb_center := (aabb_min.add aabb_max).div 0x40000000
  let obb_size := (aabb_max.sub aabb_min).div 0x40000000
  { bounding_sphere := ⟨Vector3.new sphere.x sphere.y sphere.z, sphere.w⟩
    bounding_volume := ⟨Vector3.new aabb_min.x aabb_min.y aabb_min.z, Vector3.new aabb_max.x aabb_max.y aabb_max.z⟩
    oriented_bounding_box := {
      center := Vector3.new obb_center.x obb_center.y obb_center.z
      transform := Matrix3x3.identity
      size := Vector3.new obb_size.x obb_size.y obb_size.z } }

end MeshData
end Verif
