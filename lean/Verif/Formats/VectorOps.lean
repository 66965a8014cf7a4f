import Verif.Formats.Vectors
import Verif.Float.Ieee
/-!
# Functions of vectors and matrices

The functions of /repo/ssbh_lib/src/vectors.rs. `f32::min` and `f32::max` are those of `Ieee.ops`.
-/

namespace Verif

namespace Vector3

/-- /repo/ssbh_lib/src/vectors.rs:17-26 -/
def new (x y z : F32) : Vector3 := ⟨x, y, z⟩
def ZERO : Vector3 := ⟨0, 0, 0⟩

/-- /repo/ssbh_lib/src/vectors.rs:98-112 -/
def ofTuple (v : F32 × F32 × F32) : Vector3 := ⟨v.1, v.2.1, v.2.2⟩
def toTuple (v : Vector3) : F32 × F32 × F32 := (v.x, v.y, v.z)

/-- /repo/ssbh_lib/src/vectors.rs:36-38,114-128 -/
def ofArray (v : Vector F32 3) : Vector3 := ⟨v[0], v[1], v[2]⟩
def toArray (v : Vector3) : Vector F32 3 := #v[v.x, v.y, v.z]

/-- /repo/ssbh_lib/src/vectors.rs:48-55 -/
def extend (v : Vector3) (w : F32) : Vector4 := ⟨v.x, v.y, v.z, w⟩

/-- /repo/ssbh_lib/src/vectors.rs:69-75 -/
def min (a b : Vector3) : Vector3 := new (Ieee.ops.min a.x b.x) (Ieee.ops.min a.y b.y) (Ieee.ops.min a.z b.z)
/-- /repo/ssbh_lib/src/vectors.rs:89-95 -/
def max (a b : Vector3) : Vector3 := new (Ieee.ops.max a.x b.x) (Ieee.ops.max a.y b.y) (Ieee.ops.max a.z b.z)

end Vector3

namespace Vector4

/-- /repo/ssbh_lib/src/vectors.rs:223-233 -/
def new (x y z w : F32) : Vector4 := ⟨x, y, z, w⟩
def ZERO : Vector4 := ⟨0, 0, 0, 0⟩

/-- /repo/ssbh_lib/src/vectors.rs:294-309 -/
def ofTuple (v : F32 × F32 × F32 × F32) : Vector4 := ⟨v.1, v.2.1, v.2.2.1, v.2.2.2⟩
def toTuple (v : Vector4) : F32 × F32 × F32 × F32 := (v.x, v.y, v.z, v.w)

/-- /repo/ssbh_lib/src/vectors.rs:247-249,311-326 -/
def ofArray (v : Vector F32 4) : Vector4 := ⟨v[0], v[1], v[2], v[3]⟩
def toArray (v : Vector4) : Vector F32 4 := #v[v.x, v.y, v.z, v.w]

/-- /repo/ssbh_lib/src/vectors.rs:263-270 -/
def min (a b : Vector4) : Vector4 :=
  new (Ieee.ops.min a.x b.x) (Ieee.ops.min a.y b.y) (Ieee.ops.min a.z b.z) (Ieee.ops.min a.w b.w)
/-- /repo/ssbh_lib/src/vectors.rs:284-291 -/
def max (a b : Vector4) : Vector4 :=
  new (Ieee.ops.max a.x b.x) (Ieee.ops.max a.y b.y) (Ieee.ops.max a.z b.z) (Ieee.ops.max a.w b.w)

end Vector4

namespace Matrix3x3

/-- /repo/ssbh_lib/src/vectors.rs:153-159. `0x3f800000` is `1f32`. -/
def identity : Matrix3x3 where
  col1 := Vector3.new 0x3f800000 0 0
  col2 := Vector3.new 0 0x3f800000 0
  col3 := Vector3.new 0 0 0x3f800000

/-- /repo/ssbh_lib/src/vectors.rs:182-188 -/
def toColsArray (m : Matrix3x3) : Vector (Vector F32 3) 3 :=
  #v[#v[m.col1.x, m.col1.y, m.col1.z], #v[m.col2.x, m.col2.y, m.col2.z], #v[m.col3.x, m.col3.y, m.col3.z]]

/-- /repo/ssbh_lib/src/vectors.rs:203-209 -/
def fromColsArray (cols : Vector (Vector F32 3) 3) : Matrix3x3 where
  col1 := .ofArray cols[0]
  col2 := .ofArray cols[1]
  col3 := .ofArray cols[2]

end Matrix3x3

namespace Matrix4x4

/-- /repo/ssbh_lib/src/vectors.rs:364-371 -/
def identity : Matrix4x4 where
  col1 := Vector4.new 0x3f800000 0 0 0
  col2 := Vector4.new 0 0x3f800000 0 0
  col3 := Vector4.new 0 0 0x3f800000 0
  col4 := Vector4.new 0 0 0 0x3f800000

/-- /repo/ssbh_lib/src/vectors.rs:396-403 -/
def toColsArray (m : Matrix4x4) : Vector (Vector F32 4) 4 :=
  #v[#v[m.col1.x, m.col1.y, m.col1.z, m.col1.w], #v[m.col2.x, m.col2.y, m.col2.z, m.col2.w],
    #v[m.col3.x, m.col3.y, m.col3.z, m.col3.w], #v[m.col4.x, m.col4.y, m.col4.z, m.col4.w]]

/-- /repo/ssbh_lib/src/vectors.rs:419-426 -/
def fromColsArray (cols : Vector (Vector F32 4) 4) : Matrix4x4 where
  col1 := .ofArray cols[0]
  col2 := .ofArray cols[1]
  col3 := .ofArray cols[2]
  col4 := .ofArray cols[3]

end Matrix4x4

end Verif
