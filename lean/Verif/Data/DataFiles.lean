import Verif.Formats.Ssbh
import Verif.Formats.MeshEx
import Verif.Formats.Adj
import Verif.Data.AdjData
import Verif.Data.HlpbData
import Verif.Data.ModlData
import Verif.Data.MeshExData
import Verif.Data.SkelData
import Verif.Data.MatlData
import Verif.Data.AnimData
import Verif.Data.MeshData
/-!
# Files of data types

`read` and `write` of the types of ssbh_data, /repo/ssbh_data/src/lib.rs:100-235: reading reads the file type and
converts it, writing converts and writes the file type. Errors keep only whether reading, writing or converting
failed.
-/

namespace Verif

inductive DataErr where
  | read (e : RErr)
  | write (e : WErr)
  | convert
  deriving DecidableEq, Repr

def liftRead : Except RErr α → Except DataErr α
  | .error e => .error (.read e)
  | .ok v => .ok v

def liftWrite : Except WErr α → Except DataErr α
  | .error e => .error (.write e)
  | .ok v => .ok v

/-- /repo/ssbh_data/src/lib.rs:176-180 -/
def ModlData.read (b : Bytes) : Except DataErr ModlData := (liftRead (readAs Modl b)).map ModlData.ofModl

/-- /repo/ssbh_data/src/lib.rs:182-187 -/
def ModlData.write (d : ModlData) : Except DataErr Bytes := liftWrite (writeAs d.toModl)

/-- /repo/ssbh_data/src/lib.rs:176-180 -/
def HlpbData.read (b : Bytes) : Except DataErr HlpbData := (liftRead (readAs Hlpb b)).map HlpbData.ofHlpb

/-- /repo/ssbh_data/src/lib.rs:182-187 -/
def HlpbData.write (d : HlpbData) : Except DataErr Bytes := liftWrite (writeAs d.toHlpb)

/-- /repo/ssbh_data/src/lib.rs:176-180 -/
def MeshExData.read (b : Bytes) : Except DataErr MeshExData := (liftRead (MeshEx.read b)).map MeshExData.ofMeshEx

/-- /repo/ssbh_data/src/lib.rs:182-187 -/
def MeshExData.write (sphereOf : List Mesh.BoundingSphere → Mesh.BoundingSphere) (d : MeshExData) :
    Except DataErr Bytes :=
  match (d.toMeshEx sphereOf).write with
  | .error (e, _) => .error (.write e)
  | .ok b => .ok b

/-- /repo/ssbh_data/src/lib.rs:111-113. The conversion from `Matl` never fails. -/
def MatlData.read (b : Bytes) : Except DataErr MatlData := (liftRead (readAs Matl b)).map MatlData.ofMatl

/-- /repo/ssbh_data/src/lib.rs:115-119 -/
def MatlData.write (d : MatlData) : Except DataErr Bytes :=
  match d.toMatl with
  | .error _ => .error .convert
  | .ok f => liftWrite (writeAs f)

/-- /repo/ssbh_data/src/lib.rs:111-113. The conversion from `Skel` never fails. -/
def SkelData.read (b : Bytes) : Except DataErr SkelData := (liftRead (readAs Skel b)).map SkelData.ofSkel

/-- /repo/ssbh_data/src/lib.rs:115-119. The case `none` does not happen (`C36_terminates`). -/
def SkelData.write (O : MatOps Matrix4x4) (d : SkelData) : Except DataErr Bytes :=
  match d.toSkel O with
  | some (.ok f) => liftWrite (writeAs f)
  | _ => .error .convert

/-- /repo/ssbh_data/src/lib.rs:111-113 -/
def AdjData.read (b : Bytes) : Except DataErr AdjData :=
  match liftRead (Adj.read b) with
  | .error e => .error e
  | .ok a =>
    match AdjData.ofAdj a with
    | .error _ => .error .convert
    | .ok d => .ok d

/-- /repo/ssbh_data/src/lib.rs:115-119. The conversion to `Adj` never fails. -/
def AdjData.write (d : AdjData) : Except DataErr Bytes := liftWrite d.toAdj.write

/-- /repo/ssbh_data/src/lib.rs:111-113. `none` is a panic. -/
def AnimData.read (F : FloatOps) (b : Bytes) : Option (Except DataErr AnimData) :=
  match liftRead (readAs Anim b) with
  | .error e => some (.error e)
  | .ok a =>
    match AnimData.ofAnim F a with
    | none => none
    | some (.error .panic) => none
    | some (.error _) => some (.error .convert)
    | some (.ok d) => some (.ok d)

/-- /repo/ssbh_data/src/lib.rs:115-119 -/
def AnimData.write (F : FloatOps) (d : AnimData) : Except DataErr Bytes :=
  match AnimData.create F d with
  | .error _ => .error .convert
  | .ok a => liftWrite (writeAs a)

/-- /repo/ssbh_data/src/lib.rs:111-113 -/
def MeshData.read (F : FloatConv) (b : Bytes) : Except DataErr MeshData :=
  match liftRead (readAs Mesh b) with
  | .error e => .error e
  | .ok m =>
    match MeshData.ofMesh F m with
    | .error _ => .error .convert
    | .ok d => .ok d

/-- /repo/ssbh_data/src/lib.rs:115-119 -/
def MeshData.write (F : FloatConv) (bounds : List (Vector F32 3) → Mesh.BoundingInfo) (d : MeshData) :
    Except DataErr Bytes :=
  match MeshData.toMesh F bounds d with
  | .error _ => .error .convert
  | .ok m => liftWrite (writeAs m)

end Verif
