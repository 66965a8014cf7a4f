import Verif.Formats.Ssbh
import Verif.Data.Text
import Verif.Data.Reader
/-!
# ShdrData

/repo/ssbh_data/src/shdr_data.rs: the tables of buffers, uniforms and attributes in compiled shaders. These types can
only be read. Fields that the code reads and never uses are read and dropped (marked `_`), which keeps the bytes that
must be there.

`String::from_utf8_lossy` is a parameter, see `Lossy`.
-/

namespace Verif

/-- `String::from_utf8_lossy`. Only valid UTF-8 has a fixed result here. -/
structure Lossy where
  decode : Bytes → String
  valid : ∀ s, decode (textBytes s) = s

namespace ShdrData

/-- /repo/ssbh_data/src/shdr_data.rs:334-367 -/
inductive DataType where
  | Boolean
  | Int
  | Unk7
  | UnsignedInt
  | UVec3
  | Float
  | Vector2
  | Vector3
  | Vector4
  | Matrix4x4
  | Sampler2d
  | Sampler3d
  | SamplerCube
  | Sampler2dArray
  | Image2d
  deriving DecidableEq, Repr

/-- The discriminants of /repo/ssbh_data/src/shdr_data.rs:338-367 -/
def DataType.ofNumber : Nat → Option DataType
  | 0 => some .Boolean
  | 4 => some .Int
  | 7 => some .Unk7
  | 20 => some .UnsignedInt
  | 22 => some .UVec3
  | 36 => some .Float
  | 37 => some .Vector2
  | 38 => some .Vector3
  | 39 => some .Vector4
  | 50 => some .Matrix4x4
  | 67 => some .Sampler2d
  | 68 => some .Sampler3d
  | 69 => some .SamplerCube
  | 73 => some .Sampler2dArray
  | 103 => some .Image2d
  | _ => none

/-- `#[br(repr(u32))]`, /repo/ssbh_data/src/shdr_data.rs:337 -/
def DataType.read : Rd DataType := do
  let number ← Rd.u32
  match DataType.ofNumber number.toNat with
  | some t => return t
  | none => fun _ _ => .error .badTag

/-- /repo/ssbh_data/src/shdr_data.rs:328-332 -/
structure EntryString where
  offset : UInt32
  length : UInt32
  deriving DecidableEq, Repr

/-- /repo/ssbh_data/src/shdr_data.rs:328-332, with the `pad_after = 32` of all its uses -/
def EntryString.read : Rd EntryString := do
  let offset ← Rd.u32
  let length ← Rd.u32
  Rd.skip 32
  return ⟨offset, length⟩

/-- /repo/ssbh_data/src/shdr_data.rs:268-284. Without `unk8`, `unk9` and `unk10`, which are only read. -/
structure BufferEntry where
  name : EntryString
  used_size_in_bytes : UInt32
  uniform_entry_count : UInt32
  unk4 : Int32
  unk5 : Int32
  unk6 : Int32
  unk7 : Int32
  deriving DecidableEq, Repr

/-- /repo/ssbh_data/src/shdr_data.rs:268-284 -/
def BufferEntry.read : Rd BufferEntry := do
  let name ← EntryString.read
  let used_size_in_bytes ← Rd.u32
  let uniform_entry_count ← Rd.u32
  let unk4 ← Rd.i32
  let unk5 ← Rd.i32
  let unk6 ← Rd.i32
  let unk7 ← Rd.i32
  let _unk8 ← Rd.i32
  let _unk9 ← Rd.i32
  let _unk10 ← Rd.i32
  Rd.skip 32
  return ⟨name, used_size_in_bytes, uniform_entry_count, unk4, unk5, unk6, unk7⟩

/-- /repo/ssbh_data/src/shdr_data.rs:286-309. Without the fields that are only read. -/
structure UniformEntry where
  name : EntryString
  data_type : DataType
  buffer_index : Int32
  uniform_buffer_offset : Int32
  unk11 : Int32
  deriving DecidableEq, Repr

/-- /repo/ssbh_data/src/shdr_data.rs:286-309 -/
def UniformEntry.read : Rd UniformEntry := do
  let name ← EntryString.read
  let data_type ← DataType.read
  let buffer_index ← Rd.i32
  let uniform_buffer_offset ← Rd.i32
  let _unk4 ← Rd.i32
  let _unk5 ← Rd.i32
  let _unk6 ← Rd.i32
  let _unk7 ← Rd.i32
  let _unk8 ← Rd.i32
  let _unk10 ← Rd.i32
  let unk11 ← Rd.i32
  let _unk12 ← Rd.i32
  let _unk13 ← Rd.i32
  let _unk14 ← Rd.i32
  let _unk15 ← Rd.i32
  let _unk16 ← Rd.i32
  let _unk17 ← Rd.i32
  Rd.skip 60
  return ⟨name, data_type, buffer_index, uniform_buffer_offset, unk11⟩

/-- /repo/ssbh_data/src/shdr_data.rs:311-326. Without the fields that are only read. -/
structure AttributeEntry where
  name : EntryString
  data_type : DataType
  location : Int32
  deriving DecidableEq, Repr

/-- /repo/ssbh_data/src/shdr_data.rs:311-326 -/
def AttributeEntry.read : Rd AttributeEntry := do
  let name ← EntryString.read
  let data_type ← DataType.read
  let _unk2 ← Rd.i32
  let location ← Rd.i32
  let _unk4 ← Rd.i32
  let _unk5 ← Rd.u32
  Rd.skip 32
  return ⟨name, data_type, location⟩

/-- `UnkPtr<T>`: /repo/ssbh_data/src/shdr_data.rs:232-266. The sum of two `u32` does not overflow `u64`. -/
def unkPtr (m : Rd α) (entry_offset count : UInt32) : Rd (List α) := do
  let relative_offset ← Rd.u32
  Rd.at_ (entry_offset.toNat + relative_offset.toNat) (Rd.vec m count.toNat)

/-- /repo/ssbh_data/src/shdr_data.rs:195-230. Without the fields that are only read. -/
structure UnkHeader where
  entry_offset : UInt32
  buffer_entries : List BufferEntry
  uniforms : List UniformEntry
  inputs : List AttributeEntry
  outputs : List AttributeEntry
  string_section_relative_offset : UInt32
  deriving DecidableEq, Repr

/-- /repo/ssbh_data/src/shdr_data.rs:195-230 -/
def UnkHeader.read : Rd UnkHeader := do
  let _file_end_relative_offset ← Rd.u32
  let entry_offset ← Rd.u32
  let _unk1 ← Rd.u32
  Rd.skip 32
  let buffer_count ← Rd.u32
  let buffer_entries ← unkPtr BufferEntry.read entry_offset buffer_count
  let uniform_count ← Rd.u32
  let uniforms ← unkPtr UniformEntry.read entry_offset uniform_count
  let input_count ← Rd.u32
  let inputs ← unkPtr AttributeEntry.read entry_offset input_count
  let output_count ← Rd.u32
  let outputs ← unkPtr AttributeEntry.read entry_offset output_count
  let _unk3 ← Rd.u32
  let _unk4 ← Rd.u32
  let _unk5 ← Rd.u32
  let _unk6 ← Rd.u32
  let _unk7 ← Rd.u32
  let _string_info_end_relative_offset ← Rd.u32
  let _string_section_length ← Rd.u32
  let string_section_relative_offset ← Rd.u32
  return ⟨entry_offset, buffer_entries, uniforms, inputs, outputs, string_section_relative_offset⟩

/-- /repo/ssbh_data/src/shdr_data.rs:168-185 -/
structure ShaderBinary where
  header : UnkHeader
  program_code : Bytes
  deriving DecidableEq, Repr

/-- /repo/ssbh_data/src/shdr_data.rs:168-185 -/
def ShaderBinary.parse : Rd ShaderBinary := do
  Rd.seek 288
  let header ← UnkHeader.read
  Rd.seek 2504
  let code_length ← Rd.u32
  Rd.seek 2896
  let program_code ← Rd.bytes code_length.toNat
  return ⟨header, program_code⟩

/-- `ShaderBinary::read`, /repo/ssbh_data/src/shdr_data.rs:187-191. All positions are absolute. -/
def ShaderBinary.read (b : Bytes) : Except RErr ShaderBinary := (ShaderBinary.parse b 0).map (·.1)

/-- /repo/ssbh_data/src/shdr_data.rs:369-381. `none` is the error, for which all callers panic. -/
def readString (L : Lossy) (b : Bytes) (header : UnkHeader) (s : EntryString) : Option String :=
  let strings_start := header.entry_offset.toNat + header.string_section_relative_offset.toNat
  match readBytes (s.length.toNat - 1) b (strings_start + s.offset.toNat) with
  | .error _ => none
  | .ok (bytes, _) => some (L.decode bytes)

/-- /repo/ssbh_data/src/shdr_data.rs:74-85 -/
structure Buffer where
  name : String
  used_size_in_bytes : UInt32
  uniform_count : UInt32
  unk4 : Int32
  unk5 : Int32
  unk6 : Int32
  unk7 : Int32
  deriving DecidableEq, Repr

/-- /repo/ssbh_data/src/shdr_data.rs:87-100. `none` is a panic. -/
def Buffer.new (L : Lossy) (b : Bytes) (header : UnkHeader) (e : BufferEntry) : Option Buffer := do
  let name ← readString L b header e.name
  return ⟨name, e.used_size_in_bytes, e.uniform_entry_count, e.unk4, e.unk5, e.unk6, e.unk7⟩

/-- /repo/ssbh_data/src/shdr_data.rs:102-111 -/
structure Uniform where
  name : String
  data_type : DataType
  buffer_index : Int32
  uniform_buffer_offset : Int32
  unk11 : Int32
  deriving DecidableEq, Repr

/-- /repo/ssbh_data/src/shdr_data.rs:113-124. `none` is a panic. -/
def Uniform.new (L : Lossy) (b : Bytes) (header : UnkHeader) (e : UniformEntry) : Option Uniform := do
  let name ← readString L b header e.name
  return ⟨name, e.data_type, e.buffer_index, e.uniform_buffer_offset, e.unk11⟩

/-- /repo/ssbh_data/src/shdr_data.rs:126-133 -/
structure Attribute where
  name : String
  data_type : DataType
  location : Int32
  deriving DecidableEq, Repr

/-- /repo/ssbh_data/src/shdr_data.rs:135-144. `none` is a panic. -/
def Attribute.new (L : Lossy) (b : Bytes) (header : UnkHeader) (e : AttributeEntry) : Option Attribute := do
  let name ← readString L b header e.name
  return ⟨name, e.data_type, e.location⟩

/-- /repo/ssbh_data/src/shdr_data.rs:28-36 -/
structure MetaData where
  buffers : List Buffer
  uniforms : List Uniform
  inputs : List Attribute
  outputs : List Attribute
  deriving DecidableEq, Repr

/-- /repo/ssbh_data/src/shdr_data.rs:38-72. `none` is a panic. -/
def MetaData.new (L : Lossy) (b : Bytes) (shader : ShaderBinary) : Option MetaData := do
  let buffers ← shader.header.buffer_entries.mapM (Buffer.new L b shader.header)
  let uniforms ← shader.header.uniforms.mapM (Uniform.new L b shader.header)
  let inputs ← shader.header.inputs.mapM (Attribute.new L b shader.header)
  let outputs ← shader.header.outputs.mapM (Attribute.new L b shader.header)
  return ⟨buffers, uniforms, inputs, outputs⟩

/-- `MetaData::read`, /repo/ssbh_data/src/shdr_data.rs:147-160. `none` is a panic. -/
def MetaData.read (L : Lossy) (b : Bytes) : Option (Except RErr MetaData) :=
  match ShaderBinary.read b with
  | .error e => some (.error e)
  | .ok shader =>
    match MetaData.new L b shader with
    | none => none
    | some d => some (.ok d)

/-- /repo/ssbh_data/src/shdr_data.rs:18-26 -/
structure ShaderEntryData where
  name : String
  shader_stage : Shdr.ShaderStage
  meta_data : MetaData
  deriving DecidableEq, Repr

/-- The closure of /repo/ssbh_data/src/shdr_data.rs:401-410. `none` is a panic. -/
def ShaderEntryData.ofShader (L : Lossy) (s : Shdr.Shader) : Option ShaderEntryData :=
  match ShaderBinary.read s.shader_binary with
  | .error _ => none
  | .ok shader => do
    let meta_data ← MetaData.new L s.shader_binary shader
    return ⟨toStringLossy s.name, s.shader_stage, meta_data⟩

end ShdrData

/-- /repo/ssbh_data/src/shdr_data.rs:11-16 -/
structure ShdrData where
  shaders : List ShdrData.ShaderEntryData
  deriving DecidableEq, Repr

/-- `ShdrData::try_from`, /repo/ssbh_data/src/shdr_data.rs:391-415. `none` is a panic. -/
def ShdrData.ofShdr (L : Lossy) : Shdr → Option ShdrData
  | .V12 v => (v.shaders.mapM (ShdrData.ShaderEntryData.ofShader L)).map ShdrData.mk

/-- `ShdrData::read`, /repo/ssbh_data/src/shdr_data.rs:424-426. `none` is a panic. -/
def ShdrData.read (L : Lossy) (b : Bytes) : Option (Except RErr ShdrData) :=
  match readAs Shdr b with
  | .error e => some (.error e)
  | .ok f =>
    match ShdrData.ofShdr L f with
    | none => none
    | some d => some (.ok d)

end Verif
