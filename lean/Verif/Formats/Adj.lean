import Verif.Lib.File
/-!
# Adj

/repo/ssbh_lib/src/formats/adj.rs
-/

namespace Verif

/-- /repo/ssbh_lib/src/formats/adj.rs:48-57 -/
structure Adj.AdjEntry where
  mesh_object_index : UInt32
  index_buffer_offset : UInt32
  deriving DecidableEq, Repr

/-- /repo/ssbh_lib/src/formats/adj.rs:17-43, without the temporary field. -/
structure Adj where
  entries : List Adj.AdjEntry
  index_buffer : List Int16
  deriving DecidableEq, Repr

namespace Adj

def AdjEntry.codec : Codec AdjEntry :=
  struct 4 (iso (pair u32 u32) (fun v => (v.mesh_object_index, v.index_buffer_offset)) (fun (a, b) => ⟨a, b⟩))

instance : LawC AdjEntry.codec := by unfold AdjEntry.codec; infer_instance

/-- `SsbhWrite for Adj`: /repo/ssbh_lib/src/formats/adj.rs:60-78. `size_in_bytes` is the default
`size_of::<Adj>()` (two vectors); it only moves the data pointer, which is not used. -/
def ssbhWrite (v : Adj) (w : W) : Except WErr W :=
  let w := w.bump 48
  match u32.write (UInt32.ofNat v.entries.length) w with
  | .error e => .error e
  | .ok w =>
    match writeSlice AdjEntry.codec v.entries w with
    | .error e => .error e
    | .ok w => writeSlice i16 v.index_buffer w

/-- `Adj::write` to an empty output, /repo/ssbh_lib/src/lib.rs:284-287. -/
def write (v : Adj) : Except WErr Bytes :=
  match v.ssbhWrite W.init with
  | .error e => .error e
  | .ok w => .ok w.buf

/-- `until_eof` of binrw for `i16`: elements are read until an element cannot be read completely;
/repo/ssbh_lib/src/formats/adj.rs:41-42. -/
def readI16s : Bytes → List Int16
  | x :: y :: rest => (UInt16.ofNat (fromLe [x, y])).toInt16 :: readI16s rest
  | _ => []

/-- `Adj::read`: /repo/ssbh_lib/src/lib.rs:277-282, /repo/ssbh_lib/src/formats/adj.rs:17-43. -/
def read (b : Bytes) : Except RErr Adj :=
  match u32.read b 0 with
  | .error e => .error e
  | .ok (count, p) =>
    match readElems AdjEntry.codec count.toNat b p with
    | .error e => .error e
    | .ok (entries, p) => .ok ⟨entries, readI16s (b.drop p)⟩

end Adj
end Verif
