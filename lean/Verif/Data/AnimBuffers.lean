import Verif.Data.Compression
/-!
# Track data of animations

Models /repo/ssbh_data/src/anim_data/buffers.rs and the track data types of
/repo/ssbh_data/src/anim_data/compression.rs:28-54.
-/

namespace Verif

/-- `CompressedBuffer`: /repo/ssbh_data/src/anim_data/compression.rs:46-54. The reader takes everything up to the
end of the input. -/
def compressedBuffer : Codec Bytes where
  size := sliceSize u8
  align := 1
  write v w := writeSlice u8 v (w.bump (sliceSize u8 v))
  read b p := .ok (b.drop p, max p b.length)

/-- /repo/ssbh_data/src/anim_data/compression.rs:35-43 -/
structure CompressedHeader (T : Type) where
  unk_4 : UInt16
  flags : CompressionFlags
  default_data : Option T
  bits_per_entry : UInt16
  compressed_data : Option Bytes
  frame_count : UInt32

/-- /repo/ssbh_data/src/anim_data/compression.rs:28-32 -/
structure CompressedTrackData {T : Type} (D : CompressedData T) where
  header : CompressedHeader T
  compression : D.C

/-- Derived implementations of the header; the codec of the buffer is a parameter for the proofs only. -/
def CompressedHeader.codec (c : Codec T) (buffer : Codec Bytes) : Codec (CompressedHeader T) :=
  struct 4 (iso (pair u16 (pair bitfield16 (pair (absPtr 2 c) (pair u16 (pair (absPtr 4 buffer) u32)))))
    (fun v => (v.unk_4, v.flags, v.default_data, v.bits_per_entry, v.compressed_data, v.frame_count))
    (fun (a, b, c, d, e, f) => ⟨a, b, c, d, e, f⟩))

def CompressedTrackData.codecWith (D : CompressedData T) (buffer : Codec Bytes) : Codec (CompressedTrackData D) :=
  struct 8 (iso (pair (CompressedHeader.codec D.codec buffer) D.compCodec)
    (fun v => (v.header, v.compression))
    (fun (header, compression) => ⟨header, compression⟩))

def CompressedTrackData.codec (D : CompressedData T) : Codec (CompressedTrackData D) :=
  CompressedTrackData.codecWith D compressedBuffer

/-- `value.write(&mut Cursor::new(Vec::new()))`: /repo/ssbh_write/src/lib.rs:51-57 -/
def runWrite (c : Codec α) (v : α) : Except AnimErr Bytes :=
  match c.write v W.init with
  | .ok w => .ok w.buf
  | .error e => .error (.write e)

/-- The loop of /repo/ssbh_data/src/anim_data/buffers.rs:161-163 -/
def compressAll (D : CompressedData T) (c : D.C) (flags : CompressionFlags) : List T → BitWrite
  | [] => pure ()
  | v :: vs => do
    D.compress v c flags
    compressAll D c flags vs

/-- /repo/ssbh_data/src/anim_data/buffers.rs:148-166 -/
def createCompressedBuffer (D : CompressedData T) (values : List T) (c : D.C) (flags : CompressionFlags) :
    Except AnimErr Bytes :=
  match compressAll D c flags values (.new (List.replicate (values.length * D.bitCount c flags) false)) with
  | .ok ((), w) => .ok w.intoBytes
  | .error e => .error e

/-- /repo/ssbh_data/src/anim_data/buffers.rs:122-146. The casts to `u16` and `u32` wrap. -/
def writeCompressed (D : CompressedData T) (values : List T) (flags : CompressionFlags)
    (compensateScale : Bool) : Except AnimErr Bytes :=
  let (default, compression) := D.getDefaultAndCompression values compensateScale
  match createCompressedBuffer D values compression flags with
  | .error e => .error e
  | .ok buffer =>
    runWrite (CompressedTrackData.codec D)
      ⟨⟨4, flags, some default, UInt16.ofNat (D.bitCount compression flags), some buffer,
        UInt32.ofNat values.length⟩, compression⟩

/-- The loop of /repo/ssbh_data/src/anim_data/buffers.rs:315-327 -/
def decompressN (d : BitRead T) : Nat → BitRead (List T)
  | 0 => pure []
  | n + 1 => do
    let v ← d
    let vs ← decompressN d n
    return v :: vs

/-- /repo/ssbh_data/src/anim_data/buffers.rs:280-330 -/
def readCompressedInner (D : CompressedData T) (data : CompressedTrackData D) (frameCount : Nat) :
    Except AnimErr (List T) :=
  let expected := D.bitCount data.compression data.header.flags
  if data.header.bits_per_entry.toNat ≠ expected then
    .error (.unexpectedBitCount expected data.header.bits_per_entry.toNat)
  else
    match data.header.compressed_data with
    | none => .error .malformedHeader
    | some buffer =>
      let actualCount := if expected = 0 ∧ frameCount > 0 then 1 else frameCount
      match data.header.default_data with
      | none => if actualCount = 0 then .ok [] else .error .malformedHeader
      | some default =>
        match decompressN (D.decompress data.compression default
            (D.getArgs data.header.flags data.header.bits_per_entry)) actualCount (.fromSlice buffer) with
        | .ok (vs, _) => .ok vs
        | .error e => .error e

/-- /repo/ssbh_data/src/anim_data/buffers.rs:271-278 -/
def readCompressed (D : CompressedData T) (b : Bytes) (frameCount : Nat) : Except AnimErr (List T) :=
  match (CompressedTrackData.codec D).read b 0 with
  | .error e => .error (.read e)
  | .ok (data, _) => readCompressedInner D data frameCount

/-- /repo/ssbh_data/src/anim_data/buffers.rs:168-179 -/
def readUncompressed (c : Codec T) (b : Bytes) (frameCount : Nat) : Except AnimErr (List T) :=
  match readElems c frameCount b 0 with
  | .error e => .error (.read e)
  | .ok (vs, _) => .ok vs

/-- /repo/ssbh_data/src/anim_data.rs:718-735 -/
inductive TrackValues where
  | transform (values : List Transform)
  | uvTransform (values : List UvTransform)
  | float (values : List F32)
  | patternIndex (values : List UInt32)
  | boolean (values : List Bool)
  | vector4 (values : List Vector4)
  deriving DecidableEq, Repr

namespace TrackValues

/-- /repo/ssbh_data/src/anim_data.rs:746-755 -/
def len : TrackValues → Nat
  | transform v => v.length
  | uvTransform v => v.length
  | float v => v.length
  | patternIndex v => v.length
  | boolean v => v.length
  | vector4 v => v.length

/-- /repo/ssbh_data/src/anim_data.rs:775-784 -/
def trackType : TrackValues → Anim.TrackTypeV2
  | transform _ => .Transform
  | uvTransform _ => .UvTransform
  | float _ => .Float
  | patternIndex _ => .PatternIndex
  | boolean _ => .Boolean
  | vector4 _ => .Vector4

end TrackValues

/-- `CompressionFlags::new()` with scale, rotation and translation, and the given uniform scale bit. -/
def CompressionFlags.ofUniform (uniform : Bool) : CompressionFlags := if uniform then 0b1111 else 0b1101

/-- /repo/ssbh_data/src/anim_data/compression.rs:77-100 -/
def CompressionFlags.fromTrack (F : FloatOps) : TrackValues → CompressionFlags
  | .transform values =>
    .ofUniform (values.all fun t => F.eq t.scale.x t.scale.y && F.eq t.scale.y t.scale.z)
  | .uvTransform values => .ofUniform (values.all fun t => F.eq t.scale_u t.scale_v)
  | _ => 0

/-- /repo/ssbh_data/src/anim_data/buffers.rs:22-92. `Vec<T>::write` is the slice writer. -/
def TrackValues.write (F : FloatOps) (values : TrackValues) (compression : Anim.CompressionType)
    (compensateScale : Bool) : Except AnimErr Bytes :=
  let flags := CompressionFlags.fromTrack F values
  if compression = .Compressed then
    match values with
    | transform vs =>
      writeCompressed (.transform F) (vs.map (UncompressedTransform.fromTransform · compensateScale)) flags
        compensateScale
    | uvTransform vs => writeCompressed (.uvTransform F) vs flags compensateScale
    | float vs => writeCompressed (.float F) vs flags compensateScale
    | patternIndex vs => writeCompressed (.patternIndex F) vs flags compensateScale
    | boolean vs => writeCompressed .boolean (vs.map Boolean.ofBool) flags compensateScale
    | vector4 vs => writeCompressed (.vector4 F) vs flags compensateScale
  else
    match values with
    | transform vs =>
      runWrite (vecN 0 UncompressedTransform.codec)
        (vs.map (UncompressedTransform.fromTransform · compensateScale))
    | uvTransform vs => runWrite (vecN 0 UvTransform.codec) vs
    | float vs => runWrite (vecN 0 f32) vs
    | patternIndex vs => runWrite (vecN 0 u32) vs
    | boolean vs => runWrite (vecN 0 Boolean.codec) (vs.map Boolean.ofBool)
    | vector4 vs => runWrite (vecN 0 Vector4.codec) vs

/-- `values.iter().map(|t| t.compensate_scale != 0).next().unwrap_or_default()`,
/repo/ssbh_data/src/anim_data/buffers.rs:203-207,236-240 -/
def firstCompensateScale : List UncompressedTransform → Bool
  | [] => false
  | t :: _ => t.compensate_scale ≠ 0

/-- /repo/ssbh_data/src/anim_data/buffers.rs:181-269. The last case of each match cannot happen. -/
def readTrackValues (F : FloatOps) (b : Bytes) (flags : Anim.TrackFlags) (count : Nat) :
    Except AnimErr (TrackValues × Bool) := do
  let read {T : Type} (D : CompressedData T) : Except AnimErr (List T) :=
    if flags.compression_type = .Compressed then readCompressed D b count
    else readUncompressed D.codec b count
  if flags.track_type = .Transform then
    let vs ← read (.transform F)
    return (.transform (vs.map Transform.ofUncompressed), firstCompensateScale vs)
  else if flags.track_type = .UvTransform then return (.uvTransform (← read (.uvTransform F)), false)
  else if flags.track_type = .Float then return (.float (← read (.float F)), false)
  else if flags.track_type = .PatternIndex then return (.patternIndex (← read (.patternIndex F)), false)
  else if flags.track_type = .Boolean then
    return (.boolean ((← read .boolean).map Boolean.toBool), false)
  else return (.vector4 (← read (.vector4 F)), false)

deriving instance Inhabited for Vector3, Vector4, UncompressedTransform, UvTransform
instance : Inhabited BitCount := ⟨⟨0, by decide⟩⟩
deriving instance Inhabited for U32Compression, F32Compression, Vector3Compression, Vector4Compression,
  TransformCompression, UvTransformCompression

/-- /repo/ssbh_data/src/anim_data/buffers.rs:94-108 with compression.rs:123-130: header, default and compression parameters
of one default value. The `Default` values are all zero. -/
def TrackValues.overhead : TrackValues → Nat
  | transform _ => 16 + UncompressedTransform.codec.size default + TransformCompression.codec.size default
  | uvTransform _ => 16 + UvTransform.codec.size default + UvTransformCompression.codec.size default
  | float _ => 16 + f32.size 0 + F32Compression.codec.size default
  | patternIndex _ => 16 + u32.size 0 + U32Compression.codec.size default
  | boolean _ => 16 + Boolean.codec.size 0 + u128.size 0
  | vector4 _ => 16 + Vector4.codec.size default + Vector4Compression.codec.size default

/-- /repo/ssbh_data/src/anim_data/buffers.rs:110-119 -/
def TrackValues.dataSize : TrackValues → Nat
  | transform _ => UncompressedTransform.codec.size default
  | uvTransform _ => UvTransform.codec.size default
  | float _ => f32.size 0
  | patternIndex _ => u32.size 0
  | boolean _ => Boolean.codec.size 0
  | vector4 _ => Vector4.codec.size default

/-- /repo/ssbh_data/src/anim_data.rs:338-360 -/
def inferOptimalCompressionType (values : TrackValues) : Anim.CompressionType :=
  if values.len ≤ 1 then
    match values with
    | .transform _ => .ConstTransform
    | _ => .Constant
  else if values.len > values.overhead / values.dataSize + 1 then .Compressed
  else .Direct

end Verif
