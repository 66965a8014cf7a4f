import Verif.Formats.Adj
/-!
# AdjData

/repo/ssbh_data/src/adj_data.rs. `usize` is `Nat`.
-/

namespace Verif

/-- /repo/ssbh_data/src/adj_data.rs:35-51, and `panic` for an out of range index in `triangle_adjacency`. The `Io`
error is not raised by the modelled functions. -/
inductive AdjErr where
  | bufferOffsetOutOfRange (start stop bufferSize : Nat)
  | panic
  deriving DecidableEq, Repr

/-- /repo/ssbh_data/src/adj_data.rs:66-74 -/
structure AdjEntryData where
  mesh_object_index : Nat
  vertex_adjacency : List Int16
  deriving DecidableEq, Repr

/-- /repo/ssbh_data/src/adj_data.rs:58-60 -/
structure AdjData where
  entries : List AdjEntryData
  deriving DecidableEq, Repr

namespace AdjData

/-- The `scan` of /repo/ssbh_data/src/adj_data.rs:137-148. -/
def scanEntries (offset : Nat) : List AdjEntryData → List Adj.AdjEntry
  | [] => []
  | e :: es => ⟨UInt32.ofNat e.mesh_object_index, UInt32.ofNat offset⟩ ::
      scanEntries (offset + e.vertex_adjacency.length * 2) es

/-- `TryFrom<&AdjData> for Adj`: /repo/ssbh_data/src/adj_data.rs:132-156. It has no error case. -/
def toAdj (d : AdjData) : Adj :=
  ⟨scanEntries 0 d.entries, d.entries.flatMap (·.vertex_adjacency)⟩

/-- `slice.get(start..end)` of the standard library. -/
def sliceGet (l : List α) (start stop : Nat) : Option (List α) :=
  if start ≤ stop ∧ stop ≤ l.length then some ((l.drop start).take (stop - start)) else none

/-- `slice.get(start..)` of the standard library. -/
def sliceGetFrom (l : List α) (start : Nat) : Option (List α) :=
  if start ≤ l.length then some (l.drop start) else none

/-- `offset_to_index`: /repo/ssbh_data/src/adj_data.rs:170 -/
def offsetToIndex (x : UInt32) : Nat := x.toNat / 2

/-- The loop of /repo/ssbh_data/src/adj_data.rs:174-203. -/
def readEntries (buf : List Int16) : List Adj.AdjEntry → Except AdjErr (List AdjEntryData)
  | [] => .ok []
  | [e] =>
    match sliceGetFrom buf (offsetToIndex e.index_buffer_offset) with
    | some vs => .ok [⟨e.mesh_object_index.toNat, vs⟩]
    | none => .error (.bufferOffsetOutOfRange e.index_buffer_offset.toNat (buf.length * 2) (buf.length * 2))
  | e :: e' :: es =>
    match sliceGet buf (offsetToIndex e.index_buffer_offset) (offsetToIndex e'.index_buffer_offset) with
    | none => .error (.bufferOffsetOutOfRange e.index_buffer_offset.toNat e'.index_buffer_offset.toNat
        (buf.length * 2))
    | some vs =>
      match readEntries buf (e' :: es) with
      | .error err => .error err
      | .ok rest => .ok (⟨e.mesh_object_index.toNat, vs⟩ :: rest)

/-- `TryFrom<&Adj> for AdjData`: /repo/ssbh_data/src/adj_data.rs:166-207. -/
def ofAdj (a : Adj) : Except AdjErr AdjData :=
  match readEntries a.index_buffer a.entries with
  | .error e => .error e
  | .ok es => .ok ⟨es⟩

/-! ## Triangle adjacency -/

/-- `chunks_exact(3)`: /repo/ssbh_data/src/adj_data.rs:234-235. -/
def faces : List UInt32 → List (UInt32 × UInt32 × UInt32)
  | a :: b :: c :: rest => (a, b, c) :: faces rest
  | _ => []

/-- `v as i16` -/
def asI16 (v : UInt32) : Int16 := v.toUInt16.toInt16

/-- `adjacent_vertices[i].push(x)`; panics if `i` is out of range. -/
def pushAt (adj : List (List Int16)) (i : UInt32) (x : UInt32) : Except AdjErr (List (List Int16)) :=
  if i.toNat < adj.length then .ok (adj.modify i.toNat (· ++ [asI16 x])) else .error .panic

/-- The loop body of /repo/ssbh_data/src/adj_data.rs:234-247. -/
def addFace (adj : List (List Int16)) (f : UInt32 × UInt32 × UInt32) : Except AdjErr (List (List Int16)) := do
  let (v0, v1, v2) := f
  let adj ← pushAt adj v0 v1
  let adj ← pushAt adj v0 v2
  let adj ← pushAt adj v1 v2
  let adj ← pushAt adj v1 v0
  let adj ← pushAt adj v2 v0
  pushAt adj v2 v1

/-- The loop of /repo/ssbh_data/src/adj_data.rs:234-247. -/
def addFaces : List (UInt32 × UInt32 × UInt32) → List (List Int16) → Except AdjErr (List (List Int16))
  | [], adj => .ok adj
  | f :: fs, adj => do
    let adj ← addFace adj f
    addFaces fs adj

/-- `iter().positions(|p| *p == q)` of itertools: /repo/ssbh_data/src/adj_data.rs:257-259. -/
def positionsEq (eq : α → α → Bool) (ps : List α) (q : α) : List Nat :=
  (ps.zipIdx.filter (fun (p, _) => eq p q)).map (·.2)

/-- `for duplicate_index in .. { row.extend_from_slice(&adjacent_vertices[duplicate_index]) }`:
/repo/ssbh_data/src/adj_data.rs:257-262. -/
def collectRows (adj : List (List Int16)) : List Nat → Except AdjErr (List Int16)
  | [] => .ok []
  | j :: js =>
    match adj[j]? with
    | none => .error .panic
    | some row => do
      let rest ← collectRows adj js
      pure (row ++ rest)

/-- The loop of /repo/ssbh_data/src/adj_data.rs:253-263. The Rust loop runs over the indices of `adjacent_vertices`,
which has the length of the positions `all`. -/
def withSeams (eq : α → α → Bool) (adj : List (List Int16)) (all : List α) :
    List α → Except AdjErr (List (List Int16))
  | [] => .ok []
  | q :: qs => do
    let row ← collectRows adj (positionsEq eq all q)
    let rest ← withSeams eq adj all qs
    pure (row :: rest)

/-- `Vec::resize` with fill value -1: /repo/ssbh_data/src/adj_data.rs:271. -/
def resize (n : Nat) (a : List Int16) : List Int16 :=
  if n ≤ a.length then a.take n else a ++ List.replicate (n - a.length) (-1)

/-- `triangle_adjacency`: /repo/ssbh_data/src/adj_data.rs:217-275. The `PartialEq` of the positions is any boolean
function `eq` (equality of floats is not reflexive). -/
def triangleAdjacency (eq : α → α → Bool) (indices : List UInt32) (positions : List α) (paddingSize : Nat) :
    Except AdjErr (List Int16) := do
  let adj ← addFaces (faces indices) (List.replicate positions.length [])
  let seams ← withSeams eq adj positions positions
  pure (seams.flatMap (resize paddingSize))

/-- `from_triangle_faces`, with `MAX_ADJACENT_VERTICES`: /repo/ssbh_data/src/adj_data.rs:26-28 and 76-92. -/
def fromTriangleFaces (eq : α → α → Bool) (meshObjectIndex : Nat) (positions : List α) (indices : List UInt32) :
    Except AdjErr AdjEntryData := do
  let vs ← triangleAdjacency eq indices positions 18
  pure ⟨meshObjectIndex, vs⟩

end AdjData
end Verif
