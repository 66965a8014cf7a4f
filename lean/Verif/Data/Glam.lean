import Verif.Formats.VectorOps
import Verif.Float.Ieee
/-!
# Products of matrices of floats

`Mat4::mul_vec4` and `Mat4 * Mat4` of the crate `glam`, which /repo/ssbh_data/src/skel_data.rs:278-280 and
/repo/ssbh_data/src/mesh_data.rs:1085-1088 use: the columns of the matrix times the components of the vector, added up from
the first to the last. `glam` is not part of /repo. On some processors it adds in another order or with fewer roundings;
theorems about floats only assume that the products are accurate, of which the functions here are an instance.
-/

namespace Verif

namespace Glam
open Ieee

/-- `x + y` -/
def add (x y : F32) : F32 := toBits ((ofBits x).add (ofBits y))
/-- `x * y` -/
def mul (x y : F32) : F32 := toBits ((ofBits x).mul (ofBits y))

/-- Row `r` of a matrix times a vector. -/
def dot (m : Matrix4x4) (v : Vector F32 4) (r : Fin 4) : F32 :=
  let cols := m.toColsArray
  add (add (add (mul cols[0][r] v[0]) (mul cols[1][r] v[1])) (mul cols[2][r] v[2])) (mul cols[3][r] v[3])

/-- `Mat4::mul_vec4` -/
def mulVec (m : Matrix4x4) (v : Vector F32 4) : Vector F32 4 := #v[dot m v 0, dot m v 1, dot m v 2, dot m v 3]

/-- `Mat4 * Mat4`: each column of the second one is multiplied. -/
def mulMat (a b : Matrix4x4) : Matrix4x4 :=
  let cols := b.toColsArray
  .fromColsArray #v[mulVec a cols[0], mulVec a cols[1], mulVec a cols[2], mulVec a cols[3]]

end Glam
end Verif
