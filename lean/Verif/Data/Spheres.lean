import Verif.Data.Bounding
import Verif.Data.DataFiles
/-!
# Bounding spheres

The spheres which /repo/ssbh_data/src/meshex_data.rs puts into MeshEx files. The crate `geometry_tools` computes a sphere around
points and a sphere around spheres, both are parameters.
-/

namespace Verif

/-- With `geometry_tools::bounding::calculate_bounding_sphere_from_spheres`. -/
structure SphereGeometry extends Geometry where
  spheres : List Vector4 → Vector4

namespace MeshExData
open MeshData

/-- /repo/ssbh_data/src/meshex_data.rs:65-70. The constant is `1.0`, `Vec3A::from_slice` takes the first three numbers. -/
def groupPoints (group : List MeshObjectData) : List (Vector F32 3) :=
  (group.filterMap fun m => m.positions.head?.map fun p => p.data.toVec4WithW 0x3f800000).flatten.map
    fun v => #v[v[0], v[1], v[2]]

/-- /repo/ssbh_data/src/meshex_data.rs:71-77 -/
def groupSphere (G : SphereGeometry) (group : List MeshObjectData) : Mesh.BoundingSphere :=
  let sphere := G.sphere (groupPoints group)
  ⟨Vector3.new sphere.x sphere.y sphere.z, sphere.w⟩

/-- /repo/ssbh_data/src/meshex_data.rs:186-204 -/
def allSphere (G : SphereGeometry) (spheres : List Mesh.BoundingSphere) : Mesh.BoundingSphere :=
  let all_sphere := G.spheres (spheres.map fun s => Vector4.new s.center.x s.center.y s.center.z s.radius)
  ⟨Vector3.new all_sphere.x all_sphere.y all_sphere.z, all_sphere.w⟩

/-- /repo/ssbh_data/src/meshex_data.rs:54-91 with the spheres. -/
def ofObjects (G : SphereGeometry) (objects : List MeshObjectData) : MeshExData :=
  fromMeshObjects (·.name) (groupSphere G) objects

end MeshExData
end Verif
