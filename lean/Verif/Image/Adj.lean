import Verif.Image.Spec
import Verif.Formats.Adj
/-!
# The bytes of Adj files
-/

namespace Verif.Adj

/-- /repo/ssbh_lib/src/formats/adj.rs:48-57 -/
def AdjEntry.image (v : AdjEntry) : Image.Piece := Image.u32 v.mesh_object_index ▹ Image.u32 v.index_buffer_offset

/-- The number of entries (modulo 2^32), the entries, and the index buffer. Nothing refers to anything.
/repo/ssbh_lib/src/formats/adj.rs:17-43 -/
def image (v : Adj) : Bytes :=
  Image.le 4 v.entries.length ++ v.entries.flatMap (fun e => Image.le 4 e.mesh_object_index.toNat ++
    Image.le 4 e.index_buffer_offset.toNat) ++ v.index_buffer.flatMap (fun i => Image.le 2 (i.toInt % 65536).toNat)

end Verif.Adj
