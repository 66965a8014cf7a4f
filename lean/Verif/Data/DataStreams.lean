import Verif.Data.DataFiles
import Verif.Data.AnimV12
import Verif.Props.PlainStreamLaws
/-!
# Data types in streams

`read` and `write` of the types of ssbh_data, /repo/ssbh_data/src/lib.rs:100-235, with readers and writers which
hold other data as well and stand at a given position. A writer is a `Cursor<Vec<u8>>`; the result of writing is its
content and its position.
-/

namespace Verif

/-- `T::read` from a stream which stands at `p`: /repo/ssbh_lib/src/lib.rs:236-242 -/
def readAsAt (α : Type) [t : SsbhType α] (b : Bytes) (p : Nat) : Except RErr α :=
  match Ssbh.readAt b p with
  | .error e => .error e
  | .ok s =>
    match t.proj s with
    | some v => .ok v
    | none => .error .wrongType

/-- `T::write` into a stream: /repo/ssbh_lib/src/lib.rs:246-249 -/
def writeAsStream [t : SsbhType α] (v : α) (buf : Bytes) (pos : Nat) : Except WErr (Bytes × Nat) :=
  match t.format.writeTo v ⟨[.data 0 buf], pos, 0⟩ with
  | .error e => .error e
  | .ok w => .ok (w.buf, w.pos)

/-- /repo/ssbh_data/src/lib.rs:176-180 -/
def ModlData.readAt (b : Bytes) (p : Nat) : Except DataErr ModlData := (liftRead (readAsAt Modl b p)).map ModlData.ofModl

/-- /repo/ssbh_data/src/lib.rs:182-187 -/
def ModlData.writeStream (d : ModlData) (buf : Bytes) (pos : Nat) : Except DataErr (Bytes × Nat) :=
  liftWrite (writeAsStream d.toModl buf pos)

/-- /repo/ssbh_data/src/lib.rs:176-180 -/
def HlpbData.readAt (b : Bytes) (p : Nat) : Except DataErr HlpbData := (liftRead (readAsAt Hlpb b p)).map HlpbData.ofHlpb

/-- /repo/ssbh_data/src/lib.rs:182-187 -/
def HlpbData.writeStream (d : HlpbData) (buf : Bytes) (pos : Nat) : Except DataErr (Bytes × Nat) :=
  liftWrite (writeAsStream d.toHlpb buf pos)

/-- /repo/ssbh_data/src/lib.rs:176-180 -/
def MeshExData.readAt (b : Bytes) (p : Nat) : Except DataErr MeshExData :=
  (liftRead (MeshEx.readAt b p)).map MeshExData.ofMeshEx

/-- /repo/ssbh_data/src/lib.rs:182-187 -/
def MeshExData.writeStream (sphereOf : List Mesh.BoundingSphere → Mesh.BoundingSphere) (d : MeshExData) (buf : Bytes)
    (pos : Nat) : Except DataErr (Bytes × Nat) :=
  liftWrite ((d.toMeshEx sphereOf).writeStream buf pos)

/-- /repo/ssbh_data/src/lib.rs:111-113 -/
def MatlData.readAt (b : Bytes) (p : Nat) : Except DataErr MatlData := (liftRead (readAsAt Matl b p)).map MatlData.ofMatl

/-- /repo/ssbh_data/src/lib.rs:115-119 -/
def MatlData.writeStream (d : MatlData) (buf : Bytes) (pos : Nat) : Except DataErr (Bytes × Nat) :=
  match d.toMatl with
  | .error _ => .error .convert
  | .ok f => liftWrite (writeAsStream f buf pos)

/-- /repo/ssbh_data/src/lib.rs:111-113 -/
def SkelData.readAt (b : Bytes) (p : Nat) : Except DataErr SkelData := (liftRead (readAsAt Skel b p)).map SkelData.ofSkel

/-- /repo/ssbh_data/src/lib.rs:115-119. The case `none` does not happen (`C36_terminates`). -/
def SkelData.writeStream (O : MatOps Matrix4x4) (d : SkelData) (buf : Bytes) (pos : Nat) : Except DataErr (Bytes × Nat) :=
  match d.toSkel O with
  | some (.ok f) => liftWrite (writeAsStream f buf pos)
  | _ => .error .convert

/-- /repo/ssbh_data/src/lib.rs:111-113 -/
def AdjData.readAt (b : Bytes) (p : Nat) : Except DataErr AdjData :=
  match liftRead (Adj.readAt b p) with
  | .error e => .error e
  | .ok a =>
    match AdjData.ofAdj a with
    | .error _ => .error .convert
    | .ok d => .ok d

/-- /repo/ssbh_data/src/lib.rs:115-119 -/
def AdjData.writeStream (d : AdjData) (buf : Bytes) (pos : Nat) : Except DataErr (Bytes × Nat) :=
  liftWrite (d.toAdj.writeStream buf pos)

/-- /repo/ssbh_data/src/lib.rs:111-113. `none` is a panic. As `AnimData.readAny`, for all versions. -/
def AnimData.readAnyAt (F : FloatOps) (order : List AnimData.GroupData → List AnimData.GroupData) (checks : Bool)
    (b : Bytes) (p : Nat) : Option (Except DataErr AnimData) :=
  match liftRead (readAsAt Anim b p) with
  | .error e => some (.error e)
  | .ok (.V12 a) => (AnimData.ofV12 order checks a).map .ok
  | .ok a =>
    match AnimData.ofAnim F a with
    | none => none
    | some (.error .panic) => none
    | some (.error _) => some (.error .convert)
    | some (.ok d) => some (.ok d)

/-- /repo/ssbh_data/src/lib.rs:115-119 -/
def AnimData.writeStream (F : FloatOps) (d : AnimData) (buf : Bytes) (pos : Nat) : Except DataErr (Bytes × Nat) :=
  match AnimData.create F d with
  | .error _ => .error .convert
  | .ok a => liftWrite (writeAsStream a buf pos)

/-- /repo/ssbh_data/src/lib.rs:111-113 -/
def MeshData.readAt (F : FloatConv) (b : Bytes) (p : Nat) : Except DataErr MeshData :=
  match liftRead (readAsAt Mesh b p) with
  | .error e => .error e
  | .ok m =>
    match MeshData.ofMesh F m with
    | .error _ => .error .convert
    | .ok d => .ok d

/-- /repo/ssbh_data/src/lib.rs:115-119 -/
def MeshData.writeStream (F : FloatConv) (bounds : List (Vector F32 3) → Mesh.BoundingInfo) (d : MeshData) (buf : Bytes)
    (pos : Nat) : Except DataErr (Bytes × Nat) :=
  match MeshData.toMesh F bounds d with
  | .error _ => .error .convert
  | .ok m => liftWrite (writeAsStream m buf pos)

end Verif
