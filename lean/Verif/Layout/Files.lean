import Verif.Layout.Formats
import Verif.Formats.MeshEx
import Verif.Formats.Adj
/-!
# Layouts of files
-/

namespace Verif

/-- A file of any of the ten formats. /repo/ssbh_lib/src/lib.rs:496-537 -/
def Ssbh.FileAt (b : Bytes) : Ssbh → Prop
  | .Hlpb v => Hlpb.FileAt b v
  | .Matl v => Matl.FileAt b v
  | .Modl v => Modl.FileAt b v
  | .Mesh v => Mesh.FileAt b v
  | .Skel v => Skel.FileAt b v
  | .Anim v => Anim.FileAt b v
  | .Nlst v => Nlst.FileAt b v
  | .Nrpd v => Nrpd.FileAt b v
  | .Nufx v => Nufx.FileAt b v
  | .Shdr v => Shdr.FileAt b v

/-! ## MeshEx -/

/-- `n` elements, one after the other; `n` stands elsewhere. -/
def Layout.ManyAt (n : Nat) (L : Layout α) (b : Bytes) (p : Nat) (v : List α) : Prop :=
  v.length = n ∧ ∀ i (h : i < v.length), L.stored b (p + i * L.size) v[i]

/-- /repo/ssbh_lib/src/formats/meshex.rs:48-54 -/
def MeshEx.MeshEntry.layout : Layout MeshEx.MeshEntry :=
  ⟨16, fun b p v => Layout.u32.stored b p v.mesh_object_group_index ∧ Vector3.layout.stored b (p + 4) v.unk1⟩

/-- /repo/ssbh_lib/src/formats/meshex.rs:60-63 -/
def MeshEx.AllData.layout : Layout MeshEx.AllData :=
  ⟨24, fun b p v => Mesh.BoundingSphere.layout.stored b p v.bounding_sphere ∧
    (Layout.absolute Layout.TextAt).stored b (p + 16) v.name⟩

/-- /repo/ssbh_lib/src/formats/meshex.rs:69-76 -/
def MeshEx.MeshObjectGroup.layout : Layout MeshEx.MeshObjectGroup :=
  ⟨32, fun b p v => Mesh.BoundingSphere.layout.stored b p v.bounding_sphere ∧
    (Layout.absolute Layout.TextAt).stored b (p + 16) v.mesh_object_full_name ∧
    (Layout.absolute Layout.TextAt).stored b (p + 24) v.mesh_object_name⟩

/-- A MeshEx file: its length (which does not matter for readers), the two counts, and the fields.
/repo/ssbh_lib/src/formats/meshex.rs:17-41 -/
def MeshEx.FileAt (b : Bytes) (v : MeshEx) : Prop :=
  (∃ length, Layout.NumAt 8 b 0 length) ∧
  ∃ entryCount groupCount, Layout.NumAt 4 b 8 entryCount ∧ Layout.NumAt 4 b 12 groupCount ∧
    (Layout.absolute MeshEx.AllData.layout.stored).stored b 16 v.all_data ∧
    (Layout.absolute (Layout.ManyAt groupCount MeshEx.MeshObjectGroup.layout)).stored b 24 v.mesh_object_groups ∧
    (Layout.absolute (Layout.ManyAt entryCount MeshEx.MeshEntry.layout)).stored b 32 v.entries ∧
    (Layout.absolute (Layout.ManyAt entryCount Layout.u16)).stored b 40 v.entry_flags ∧
    Layout.u32.stored b 48 v.unk1

/-! ## Adj -/

/-- /repo/ssbh_lib/src/formats/adj.rs:48-57 -/
def Adj.AdjEntry.layout : Layout Adj.AdjEntry :=
  ⟨8, fun b p v => Layout.u32.stored b p v.mesh_object_index ∧ Layout.u32.stored b (p + 4) v.index_buffer_offset⟩

/-- An Adj file: the number of entries, the entries, and numbers of two bytes until the end. A single byte at the end does
not matter. /repo/ssbh_lib/src/formats/adj.rs:17-43 -/
def Adj.FileAt (b : Bytes) (v : Adj) : Prop :=
  Layout.NumAt 4 b 0 v.entries.length ∧
  (∀ i (h : i < v.entries.length), Adj.AdjEntry.layout.stored b (4 + i * 8) v.entries[i]) ∧
  (b.length - (4 + v.entries.length * 8)) / 2 = v.index_buffer.length ∧
  ∀ i (h : i < v.index_buffer.length), Layout.i16.stored b (4 + v.entries.length * 8 + i * 2) v.index_buffer[i]

end Verif
