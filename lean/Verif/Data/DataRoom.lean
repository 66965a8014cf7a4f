import Verif.Data.DataStreams
import Verif.Props.RoomLaws
/-!
# Data types and streams with limited room

`write` of the types of ssbh_data, /repo/ssbh_data/src/lib.rs:115-119 and 182-187, with writers which cannot become longer
than a given number of bytes, for example `Cursor<&mut [u8]>`.
-/

namespace Verif

/-- Errors of writing data to a stream with limited room. -/
inductive DataRoomErr where
  | convert
  | write (e : RoomErr)
  deriving DecidableEq, Repr

def liftRoom : Except RoomErr α → Except DataRoomErr α
  | .error e => .error (.write e)
  | .ok v => .ok v

/-- `T::write` into such a stream: /repo/ssbh_lib/src/lib.rs:246-249 -/
def writeAsRoom [t : SsbhType α] (v : α) (room : Nat) (buf : Bytes) (pos : Nat) : Except RoomErr (Bytes × Nat) :=
  match t.format.writeTo v ⟨[.data 0 buf], pos, 0⟩ with
  | .error e => .error (.other e)
  | .ok w => if fitsRoom room w.log then .ok (w.buf, w.pos) else .error .full

/-- /repo/ssbh_data/src/lib.rs:182-187 -/
def ModlData.writeRoom (d : ModlData) (room : Nat) (buf : Bytes) (pos : Nat) : Except DataRoomErr (Bytes × Nat) :=
  liftRoom (writeAsRoom d.toModl room buf pos)

/-- /repo/ssbh_data/src/lib.rs:182-187 -/
def HlpbData.writeRoom (d : HlpbData) (room : Nat) (buf : Bytes) (pos : Nat) : Except DataRoomErr (Bytes × Nat) :=
  liftRoom (writeAsRoom d.toHlpb room buf pos)

/-- /repo/ssbh_data/src/lib.rs:182-187 -/
def MeshExData.writeRoom (sphereOf : List Mesh.BoundingSphere → Mesh.BoundingSphere) (d : MeshExData) (room : Nat)
    (buf : Bytes) (pos : Nat) : Except DataRoomErr (Bytes × Nat) :=
  liftRoom ((d.toMeshEx sphereOf).writeRoom room buf pos)

/-- /repo/ssbh_data/src/lib.rs:115-119 -/
def MatlData.writeRoom (d : MatlData) (room : Nat) (buf : Bytes) (pos : Nat) : Except DataRoomErr (Bytes × Nat) :=
  match d.toMatl with
  | .error _ => .error .convert
  | .ok f => liftRoom (writeAsRoom f room buf pos)

/-- /repo/ssbh_data/src/lib.rs:115-119. The case `none` does not happen (`C36_terminates`). -/
def SkelData.writeRoom (O : MatOps Matrix4x4) (d : SkelData) (room : Nat) (buf : Bytes) (pos : Nat) :
    Except DataRoomErr (Bytes × Nat) :=
  match d.toSkel O with
  | some (.ok f) => liftRoom (writeAsRoom f room buf pos)
  | _ => .error .convert

/-- /repo/ssbh_data/src/lib.rs:115-119 -/
def AdjData.writeRoom (d : AdjData) (room : Nat) (buf : Bytes) (pos : Nat) : Except DataRoomErr (Bytes × Nat) :=
  liftRoom (d.toAdj.writeRoom room buf pos)

/-- /repo/ssbh_data/src/lib.rs:115-119 -/
def AnimData.writeRoom (F : FloatOps) (d : AnimData) (room : Nat) (buf : Bytes) (pos : Nat) :
    Except DataRoomErr (Bytes × Nat) :=
  match AnimData.create F d with
  | .error _ => .error .convert
  | .ok a => liftRoom (writeAsRoom a room buf pos)

/-- /repo/ssbh_data/src/lib.rs:115-119 -/
def MeshData.writeRoom (F : FloatConv) (bounds : List (Vector F32 3) → Mesh.BoundingInfo) (d : MeshData) (room : Nat)
    (buf : Bytes) (pos : Nat) : Except DataRoomErr (Bytes × Nat) :=
  match MeshData.toMesh F bounds d with
  | .error _ => .error .convert
  | .ok m => liftRoom (writeAsRoom m room buf pos)

end Verif
