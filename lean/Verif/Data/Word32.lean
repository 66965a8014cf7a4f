import Verif.Data.DataFiles
import Verif.Data.ShdrData
/-!
# Reading on platforms with 32 bit addresses

`usize` has 32 bits there, for example in WebAssembly, and a cast from `u64` takes the number modulo 2^32. Of the functions
that read files this changes `read_buffer`, so the types with byte buffers, and the range of the data of a track. The other
definitions are used as they are. Used for C90.
-/

namespace Verif

/-- /repo/ssbh_lib/src/arrays.rs:247-268 with `count as usize` modulo 2^32. -/
def readBuffer32 (count : Nat) (b : Bytes) (p : Nat) : Except RErr Bytes :=
  let elements := (b.drop p).take count
  if elements.length ≠ count % 2 ^ 32 then .error .shortBuffer else .ok elements

/-- `SsbhByteBuffer`, /repo/ssbh_lib/src/arrays.rs:247-290 -/
def byteBuffer32 : Codec Bytes where
  size := byteBuffer.size
  align := byteBuffer.align
  write := byteBuffer.write
  read b p :=
    match readArrayHeader b p with
    | .error e => .error e
    | .ok (seekPos, count, savedPos) =>
      match readBuffer32 count b seekPos with
      | .error e => .error e
      | .ok bs => .ok (bs, savedPos)

/-- /repo/ssbh_lib/src/formats/shdr.rs:30-39 -/
def Shdr.Shader.codec32 : Codec Shdr.Shader :=
  struct 8 (padAfter 16 (iso (pair ssbhString (pair Shdr.ShaderStage.codec (pair u32 (pair byteBuffer32 u64))))
    (fun v => (v.name, v.shader_stage, v.unk3, v.shader_binary, v.binary_size))
    (fun (name, shader_stage, unk3, shader_binary, binary_size) => ⟨name, shader_stage, unk3, shader_binary, binary_size⟩)))

/-- /repo/ssbh_lib/src/formats/shdr.rs:13-16 -/
def Shdr.V12Data.codec32 : Codec Shdr.V12Data :=
  struct 8 (iso ((array Shdr.Shader.codec32))
    (fun v => (v.shaders))
    (fun shaders => ⟨shaders⟩))

/-- `Anim::V12`, /repo/ssbh_lib/src/formats/anim.rs:28-72 -/
def Anim.V12Data.codec32 : Codec Anim.V12Data :=
  struct 8 (iso (pair ssbhString (pair f32 (pair f32 (pair f32 (pair f32 (pair (array Anim.TrackV1.codec) (array byteBuffer32)))))))
    (fun v => (v.name, v.unk1, v.final_frame_index, v.unk2, v.unk3, v.tracks, v.buffers))
    (fun (name, unk1, final_frame_index, unk2, unk3, tracks, buffers) => ⟨name, unk1, final_frame_index, unk2, unk3, tracks, buffers⟩))

/-- `Anim::V20`, /repo/ssbh_lib/src/formats/anim.rs:28-72 -/
def Anim.V20Data.codec32 : Codec Anim.V20Data :=
  struct 8 (iso (pair f32 (pair u16 (pair u16 (pair ssbhString (pair (array Anim.Group.codec) byteBuffer32)))))
    (fun v => (v.final_frame_index, v.unk1, v.unk2, v.name, v.groups, v.buffer))
    (fun (final_frame_index, unk1, unk2, name, groups, buffer) => ⟨final_frame_index, unk1, unk2, name, groups, buffer⟩))

/-- `Anim::V21`, /repo/ssbh_lib/src/formats/anim.rs:28-72 -/
def Anim.V21Data.codec32 : Codec Anim.V21Data :=
  struct 8 (iso (pair f32 (pair u16 (pair u16 (pair ssbhString (pair (array Anim.Group.codec) (pair byteBuffer32 Anim.UnkData.codec))))))
    (fun v => (v.final_frame_index, v.unk1, v.unk2, v.name, v.groups, v.buffer, v.unk_data))
    (fun (final_frame_index, unk1, unk2, name, groups, buffer, unk_data) => ⟨final_frame_index, unk1, unk2, name, groups, buffer, unk_data⟩))

/-- /repo/ssbh_lib/src/formats/mesh.rs:56-75 -/
def Mesh.MeshInner.codec32 {A : Type} {W1 : Type} (aC : Codec A) (w1C : Codec W1) : Codec (Mesh.MeshInner A W1) :=
  struct 8 (iso (pair ssbhString (pair Mesh.BoundingInfo.codec (pair u32 (pair (array (Mesh.MeshObject.codec aC)) (pair (array u32)
      (pair u64 (pair (array byteBuffer32) (pair byteBuffer32 (array (Mesh.RiggingGroup.codec w1C))))))))))
    (fun v => (v.model_name, v.bounding_info, v.unk1, v.objects, v.buffer_sizes, v.polygon_index_size, v.vertex_buffers, v.index_buffer, v.rigging_buffers))
    (fun (model_name, bounding_info, unk1, objects, buffer_sizes, polygon_index_size, vertex_buffers, index_buffer, rigging_buffers) =>
      ⟨model_name, bounding_info, unk1, objects, buffer_sizes, polygon_index_size, vertex_buffers, index_buffer, rigging_buffers⟩))

/-- /repo/ssbh_lib/src/formats/shdr.rs:13-16 -/
def Shdr.format32 : Format Shdr := { Shdr.format with
  read := fun major minor b p =>
    if major = 1 ∧ minor = 2 then mapRead .V12 (Shdr.V12Data.codec32.read b p)
    else .error .badTag }

/-- /repo/ssbh_lib/src/formats/anim.rs:28-72 -/
def Anim.format32 : Format Anim := { Anim.format with
  read := fun major minor b p =>
    if major = 1 ∧ minor = 2 then mapRead .V12 (Anim.V12Data.codec32.read b p)
    else if major = 2 ∧ minor = 0 then mapRead .V20 (Anim.V20Data.codec32.read b p)
    else if major = 2 ∧ minor = 1 then mapRead .V21 (Anim.V21Data.codec32.read b p)
    else .error .badTag }

/-- /repo/ssbh_lib/src/formats/mesh.rs:26-41 -/
def Mesh.format32 : Format Mesh := { Mesh.format with
  read := fun major minor b p =>
    if major = 1 ∧ minor = 8 then mapRead .V8 ((Mesh.MeshInner.codec32 Mesh.AttributeV8.codec (array Mesh.VertexWeightV8.codec)).read b p)
    else if major = 1 ∧ minor = 9 then mapRead .V9 ((Mesh.MeshInner.codec32 Mesh.AttributeV9.codec (array Mesh.VertexWeightV8.codec)).read b p)
    else if major = 1 ∧ minor = 10 then mapRead .V10 ((Mesh.MeshInner.codec32 Mesh.AttributeV10.codec byteBuffer32).read b p)
    else .error .badTag }

/-- `Ssbh::read_options`, /repo/ssbh_lib/src/lib.rs:506-537 -/
def Ssbh.readData32 (magic : Bytes) (b : Bytes) (p : Nat) : Except RErr Ssbh :=
  if magic = Mesh.format.magic then wrap .Mesh (Mesh.format32.readVersioned b p)
  else if magic = Anim.format.magic then wrap .Anim (Anim.format32.readVersioned b p)
  else if magic = Shdr.format.magic then wrap .Shdr (Shdr.format32.readVersioned b p)
  else Ssbh.readDataAt magic b p

/-- `SsbhFile::read`, /repo/ssbh_lib/src/lib.rs:182-186 and 496-501 -/
def Ssbh.read32 (b : Bytes) : Except RErr Ssbh :=
  match readSsbhMagicAt b 0 with
  | .error e => .error e
  | .ok (magic, q) => Ssbh.readData32 magic b q

/-- `T::read`, /repo/ssbh_lib/src/lib.rs:220-260 -/
def readAs32 (α : Type) [t : SsbhType α] (b : Bytes) : Except RErr α :=
  match Ssbh.read32 b with
  | .error e => .error e
  | .ok s =>
    match t.proj s with
    | some v => .ok v
    | none => .error .wrongType

namespace AnimData

/-- /repo/ssbh_data/src/anim_data.rs:536-567: `data_size as usize` is modulo 2^32, and the sum is checked for 32 bits. -/
def readTrack32 (F : FloatOps) (buffer : Bytes) (t : Anim.TrackV2) : Except AnimErr TrackData :=
  let start := t.data_offset.toNat
  let size := t.data_size.toNat % 2 ^ 32
  if start + size < 2 ^ 32 ∧ start + size ≤ buffer.length then
    match readTrackValues F ((buffer.drop start).take size) t.flags t.frame_count.toNat with
    | .error e => .error e
    | .ok (values, compensateScale) =>
      .ok ⟨toStringLossy t.name, compensateScale, .ofAnim t.transform_flags, values⟩
  else .error (.invalidTrackDataRange start size buffer.length)

/-- Inner loops of /repo/ssbh_data/src/anim_data.rs:502-534 -/
def readNode32 (F : FloatOps) (buffer : Bytes) (n : Anim.Node) : Except AnimErr NodeData :=
  match mapExcept (readTrack32 F buffer) n.tracks with
  | .error e => .error e
  | .ok tracks => .ok ⟨toStringLossy n.name, tracks⟩

def readGroup32 (F : FloatOps) (buffer : Bytes) (g : Anim.Group) : Except AnimErr GroupData :=
  match mapExcept (readNode32 F buffer) g.nodes with
  | .error e => .error e
  | .ok nodes => .ok ⟨g.group_type, nodes⟩

/-- /repo/ssbh_data/src/anim_data.rs:96-114,363-381,502-534 -/
def ofAnim32 (F : FloatOps) : Anim → Option (Except AnimErr AnimData)
  | .V12 _ => none
  | .V20 a => some do return ⟨2, 0, a.final_frame_index, ← mapExcept (readGroup32 F a.buffer) a.groups⟩
  | .V21 a => some do return ⟨2, 1, a.final_frame_index, ← mapExcept (readGroup32 F a.buffer) a.groups⟩

/-- /repo/ssbh_data/src/lib.rs:111-113. Tracks of at most 64 MiB: bit positions are `usize` too. -/
def read32 (F : FloatOps) (b : Bytes) : Option (Except DataErr AnimData) :=
  match liftRead (readAs32 Anim b) with
  | .error e => some (.error e)
  | .ok a =>
    match ofAnim32 F a with
    | none => none
    | some (.error .panic) => none
    | some (.error _) => some (.error .convert)
    | some (.ok d) => some (.ok d)

end AnimData

/-- /repo/ssbh_data/src/lib.rs:111-113. The conversion of a mesh has no cast of a `u64` read from the file to `usize`: counts and
indices of buffers are `u32`, and offsets are added as `u64` (/repo/ssbh_data/src/mesh_data.rs:213-226,270-330,382-429). -/
def MeshData.read32 (F : FloatConv) (b : Bytes) : Except DataErr MeshData :=
  match liftRead (readAs32 Mesh b) with
  | .error e => .error e
  | .ok m =>
    match MeshData.ofMesh F m with
    | .error _ => .error .convert
    | .ok d => .ok d

/-- /repo/ssbh_data/src/shdr_data.rs:424-426. Counts and lengths of the binary are `u32`, offsets are added as `u64`
(/repo/ssbh_data/src/shdr_data.rs:241-263,366-383). -/
def ShdrData.read32 (L : Lossy) (b : Bytes) : Option (Except RErr ShdrData) :=
  match readAs32 Shdr b with
  | .error e => some (.error e)
  | .ok f =>
    match ShdrData.ofShdr L f with
    | none => none
    | some d => some (.ok d)

end Verif
