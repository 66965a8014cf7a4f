import Verif.Lib.File
/-!
# Vectors and matrices

Types of /repo/ssbh_lib/src/vectors.rs.
Written by tools/gen_formats.py from the Rust definitions.
-/

namespace Verif

/-- /repo/ssbh_lib/src/vectors.rs:11-15 -/
structure Vector3 where
  x : F32
  y : F32
  z : F32
  deriving DecidableEq, Repr

def Vector3.codec : Codec Vector3 :=
  struct 4 (iso (pair f32 (pair f32 f32))
    (fun v => (v.x, v.y, v.z))
    (fun (x, y, z) => ⟨x, y, z⟩))

instance : LawC Vector3.codec := by
  unfold Vector3.codec; infer_instance

/-- /repo/ssbh_lib/src/vectors.rs:134-138 -/
structure Matrix3x3 where
  col1 : Vector3
  col2 : Vector3
  col3 : Vector3
  deriving DecidableEq, Repr

def Matrix3x3.codec : Codec Matrix3x3 :=
  struct 4 (iso (pair Vector3.codec (pair Vector3.codec Vector3.codec))
    (fun v => (v.col1, v.col2, v.col3))
    (fun (col1, col2, col3) => ⟨col1, col2, col3⟩))

instance : LawC Matrix3x3.codec := by
  unfold Matrix3x3.codec; infer_instance

/-- /repo/ssbh_lib/src/vectors.rs:216-221 -/
structure Vector4 where
  x : F32
  y : F32
  z : F32
  w : F32
  deriving DecidableEq, Repr

def Vector4.codec : Codec Vector4 :=
  struct 4 (iso (pair f32 (pair f32 (pair f32 f32)))
    (fun v => (v.x, v.y, v.z, v.w))
    (fun (x, y, z, w) => ⟨x, y, z, w⟩))

instance : LawC Vector4.codec := by
  unfold Vector4.codec; infer_instance

/-- /repo/ssbh_lib/src/vectors.rs:332-337 -/
structure Color4f where
  r : F32
  g : F32
  b : F32
  a : F32
  deriving DecidableEq, Repr

def Color4f.codec : Codec Color4f :=
  struct 4 (iso (pair f32 (pair f32 (pair f32 f32)))
    (fun v => (v.r, v.g, v.b, v.a))
    (fun (r, g, b, a) => ⟨r, g, b, a⟩))

instance : LawC Color4f.codec := by
  unfold Color4f.codec; infer_instance

/-- /repo/ssbh_lib/src/vectors.rs:343-348 -/
structure Matrix4x4 where
  col1 : Vector4
  col2 : Vector4
  col3 : Vector4
  col4 : Vector4
  deriving DecidableEq, Repr

def Matrix4x4.codec : Codec Matrix4x4 :=
  struct 4 (iso (pair Vector4.codec (pair Vector4.codec (pair Vector4.codec Vector4.codec)))
    (fun v => (v.col1, v.col2, v.col3, v.col4))
    (fun (col1, col2, col3, col4) => ⟨col1, col2, col3, col4⟩))

instance : LawC Matrix4x4.codec := by
  unfold Matrix4x4.codec; infer_instance

end Verif
