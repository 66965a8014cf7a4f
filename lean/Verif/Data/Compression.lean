import Verif.Formats.Anim
import Verif.Data.BitUtils
/-!
# Compression of animation tracks

Models /repo/ssbh_data/src/anim_data/compression.rs. Floats are bit patterns. The float operations the code
uses are the fields of `FloatOps`; the theorems about the layout hold for every implementation of them.
-/

namespace Verif

/-- The float operations used by the animation code.
* `eq`, `ge`: `==` and `>=` of `f32`; `min`, `max`: `f32::min`, `f32::max`.
* `compress value min max bitCount`: /repo/ssbh_data/src/anim_data/compression.rs:397-410.
* `decompress value min max bitCount`: /repo/ssbh_data/src/anim_data/compression.rs:412-427.
* `rotationW x y z`: the value `w` of /repo/ssbh_data/src/anim_data/compression.rs:375-381.
* `lastFrame n`: `n as f32 - 1.0`, /repo/ssbh_data/src/anim_data.rs:246.
* `checked`: not about floats: whether integer overflow panics (debug builds) or wraps (release builds). -/
structure FloatOps where
  eq : F32 → F32 → Bool
  ge : F32 → F32 → Bool
  min : F32 → F32 → F32
  max : F32 → F32 → F32
  compress : F32 → F32 → F32 → Nat → UInt32
  decompress : UInt32 → F32 → F32 → Nat → F32
  rotationW : F32 → F32 → F32 → F32
  lastFrame : Nat → F32
  checked : Bool

/-- `f32::is_sign_negative`: the top bit. -/
def isSignNegative (x : F32) : Bool := x.toNat.testBit 31

/-- `-x`: flips the top bit. -/
def fneg (x : F32) : F32 := x ^^^ 0x80000000

/-- Raw bits of `CompressionFlags`, /repo/ssbh_data/src/anim_data/compression.rs:62-72. -/
abbrev CompressionFlags := UInt16
namespace CompressionFlags
def hasScale (f : CompressionFlags) : Bool := f.toNat.testBit 0
def uniformScale (f : CompressionFlags) : Bool := f.toNat.testBit 1
def hasRotation (f : CompressionFlags) : Bool := f.toNat.testBit 2
def hasTranslation (f : CompressionFlags) : Bool := f.toNat.testBit 3
end CompressionFlags

/-- A `bit_count: u64` with `#[br(assert(bit_count <= 32))]`,
/repo/ssbh_data/src/anim_data/compression.rs:164-172,187-195. Values of these types are only built by the reader
and by `from_range` and `get_default_and_compression` with 0 or 24, so the bound is part of the type. The failed
assertion is reported as `RErr.badTag`. -/
structure BitCount where
  n : Nat
  le : n ≤ 32
  deriving DecidableEq, Repr

def BitCount.codec : Codec BitCount :=
  prim 8 BitCount.n (fun x => if h : x ≤ 32 then some ⟨x, h⟩ else none)

instance : LawC BitCount.codec :=
  prim_law (by decide) (fun a => Nat.lt_of_le_of_lt a.le (by decide)) (fun a => by simp [a.le])

/-- /repo/ssbh_data/src/anim_data/compression.rs:164-172 -/
structure U32Compression where
  min : UInt32
  max : UInt32
  bit_count : BitCount
  deriving DecidableEq, Repr

def U32Compression.codec : Codec U32Compression :=
  struct 8 (iso (pair u32 (pair u32 BitCount.codec))
    (fun v => (v.min, v.max, v.bit_count))
    (fun (min, max, bit_count) => ⟨min, max, bit_count⟩))

instance : LawC U32Compression.codec := by
  unfold U32Compression.codec; infer_instance

/-- /repo/ssbh_data/src/anim_data/compression.rs:187-195 -/
structure F32Compression where
  min : F32
  max : F32
  bit_count : BitCount
  deriving DecidableEq, Repr

def F32Compression.codec : Codec F32Compression :=
  struct 8 (iso (pair f32 (pair f32 BitCount.codec))
    (fun v => (v.min, v.max, v.bit_count))
    (fun (min, max, bit_count) => ⟨min, max, bit_count⟩))

instance : LawC F32Compression.codec := by
  unfold F32Compression.codec; infer_instance

/-- /repo/ssbh_data/src/anim_data/compression.rs:25 -/
def defaultBitCount : BitCount := ⟨24, by decide⟩

/-- /repo/ssbh_data/src/anim_data/compression.rs:197-207 -/
def F32Compression.fromRange (F : FloatOps) (min max : F32) : F32Compression :=
  ⟨min, max, if F.eq min max then ⟨0, by decide⟩ else defaultBitCount⟩

/-- /repo/ssbh_data/src/anim_data/compression.rs:209-218 -/
def F32Compression.bitCount (F : FloatOps) (c : F32Compression) : Nat :=
  if F.eq c.min c.max then 0 else c.bit_count.n

/-- /repo/ssbh_data/src/anim_data/compression.rs:220-225 -/
structure Vector3Compression where
  x : F32Compression
  y : F32Compression
  z : F32Compression
  deriving DecidableEq, Repr

def Vector3Compression.codec : Codec Vector3Compression :=
  struct 8 (iso (pair F32Compression.codec (pair F32Compression.codec F32Compression.codec))
    (fun v => (v.x, v.y, v.z))
    (fun (x, y, z) => ⟨x, y, z⟩))

instance : LawC Vector3Compression.codec := by
  unfold Vector3Compression.codec; infer_instance

/-- /repo/ssbh_data/src/anim_data/compression.rs:228-234 -/
def Vector3Compression.fromRange (F : FloatOps) (min max : Vector3) : Vector3Compression :=
  ⟨.fromRange F min.x max.x, .fromRange F min.y max.y, .fromRange F min.z max.z⟩

/-- /repo/ssbh_data/src/anim_data/compression.rs:237-241 -/
def Vector3Compression.bitCount (F : FloatOps) (c : Vector3Compression) : Nat :=
  c.x.bitCount F + c.y.bitCount F + c.z.bitCount F

/-- /repo/ssbh_data/src/anim_data/compression.rs:243-249 -/
structure Vector4Compression where
  x : F32Compression
  y : F32Compression
  z : F32Compression
  w : F32Compression
  deriving DecidableEq, Repr

def Vector4Compression.codec : Codec Vector4Compression :=
  struct 8 (iso (pair F32Compression.codec (pair F32Compression.codec (pair F32Compression.codec
      F32Compression.codec)))
    (fun v => (v.x, v.y, v.z, v.w))
    (fun (x, y, z, w) => ⟨x, y, z, w⟩))

instance : LawC Vector4Compression.codec := by
  unfold Vector4Compression.codec; infer_instance

/-- /repo/ssbh_data/src/anim_data/compression.rs:252-259 -/
def Vector4Compression.fromRange (F : FloatOps) (min max : Vector4) : Vector4Compression :=
  ⟨.fromRange F min.x max.x, .fromRange F min.y max.y, .fromRange F min.z max.z,
    .fromRange F min.w max.w⟩

/-- /repo/ssbh_data/src/anim_data/compression.rs:262-269 -/
def Vector4Compression.bitCount (F : FloatOps) (c : Vector4Compression) : Nat :=
  c.x.bitCount F + c.y.bitCount F + c.z.bitCount F + c.w.bitCount F

/-- /repo/ssbh_data/src/anim_data/compression.rs:271-278 -/
structure TransformCompression where
  scale : Vector3Compression
  rotation : Vector3Compression
  translation : Vector3Compression
  deriving DecidableEq, Repr

def TransformCompression.codec : Codec TransformCompression :=
  struct 8 (iso (pair Vector3Compression.codec (pair Vector3Compression.codec Vector3Compression.codec))
    (fun v => (v.scale, v.rotation, v.translation))
    (fun (scale, rotation, translation) => ⟨scale, rotation, translation⟩))

instance : LawC TransformCompression.codec := by
  unfold TransformCompression.codec; infer_instance

/-- /repo/ssbh_data/src/anim_data/compression.rs:282-289 -/
structure UncompressedTransform where
  scale : Vector3
  rotation : Vector4
  translation : Vector3
  compensate_scale : UInt32
  deriving DecidableEq, Repr

def UncompressedTransform.codec : Codec UncompressedTransform :=
  struct 4 (iso (pair Vector3.codec (pair Vector4.codec (pair Vector3.codec u32)))
    (fun v => (v.scale, v.rotation, v.translation, v.compensate_scale))
    (fun (scale, rotation, translation, cs) => ⟨scale, rotation, translation, cs⟩))

instance : LawC UncompressedTransform.codec := by
  unfold UncompressedTransform.codec; infer_instance

/-- /repo/ssbh_data/src/anim_data.rs:684-692 -/
structure Transform where
  scale : Vector3
  rotation : Vector4
  translation : Vector3
  deriving DecidableEq, Repr

/-- /repo/ssbh_data/src/anim_data.rs:671-678 -/
structure UvTransform where
  scale_u : F32
  scale_v : F32
  rotation : F32
  translate_u : F32
  translate_v : F32
  deriving DecidableEq, Repr

def UvTransform.codec : Codec UvTransform :=
  struct 4 (iso (pair f32 (pair f32 (pair f32 (pair f32 f32))))
    (fun v => (v.scale_u, v.scale_v, v.rotation, v.translate_u, v.translate_v))
    (fun (a, b, c, d, e) => ⟨a, b, c, d, e⟩))

instance : LawC UvTransform.codec := by
  unfold UvTransform.codec; infer_instance

/-- /repo/ssbh_data/src/anim_data/compression.rs:291-299 -/
def Transform.ofUncompressed (t : UncompressedTransform) : Transform :=
  ⟨t.scale, t.rotation, t.translation⟩

/-- /repo/ssbh_data/src/anim_data/compression.rs:302-309 -/
def UncompressedTransform.fromTransform (t : Transform) (compensateScale : Bool) : UncompressedTransform :=
  ⟨t.scale, t.rotation, t.translation, if compensateScale then 1 else 0⟩

/-- /repo/ssbh_data/src/anim_data/compression.rs:312-335 -/
def TransformCompression.bitCount (F : FloatOps) (c : TransformCompression) (flags : CompressionFlags) : Nat :=
  (if flags.hasTranslation then c.translation.bitCount F else 0)
    + (if flags.hasScale then
        if flags.uniformScale then c.scale.x.bitCount F else c.scale.bitCount F
      else 0)
    + (if flags.hasRotation then c.rotation.bitCount F + 1 else 0)

/-- /repo/ssbh_data/src/anim_data/compression.rs:337-344 -/
structure UvTransformCompression where
  scale_u : F32Compression
  scale_v : F32Compression
  rotation : F32Compression
  translate_u : F32Compression
  translate_v : F32Compression
  deriving DecidableEq, Repr

def UvTransformCompression.codec : Codec UvTransformCompression :=
  struct 8 (iso (pair F32Compression.codec (pair F32Compression.codec (pair F32Compression.codec
      (pair F32Compression.codec F32Compression.codec))))
    (fun v => (v.scale_u, v.scale_v, v.rotation, v.translate_u, v.translate_v))
    (fun (a, b, c, d, e) => ⟨a, b, c, d, e⟩))

instance : LawC UvTransformCompression.codec := by
  unfold UvTransformCompression.codec; infer_instance

/-- /repo/ssbh_data/src/anim_data/compression.rs:346-364 -/
def UvTransformCompression.bitCount (F : FloatOps) (c : UvTransformCompression) (flags : CompressionFlags) :
    Nat :=
  (if flags.uniformScale then c.scale_u.bitCount F else c.scale_u.bitCount F + c.scale_v.bitCount F)
    + c.rotation.bitCount F + c.translate_u.bitCount F + c.translate_v.bitCount F

/-- /repo/ssbh_data/src/anim_data/compression.rs:366-388 -/
def calculateRotationW (F : FloatOps) (rotation : Vector3) : BitRead F32 := fun r =>
  match BitReader.readBit r with
  | .error _ => .error .panic
  | .ok (flipW, r') =>
    let w := F.rotationW rotation.x rotation.y rotation.z
    .ok (if flipW then fneg w else w, r')

/-! ## `f32` and vectors -/

/-- /repo/ssbh_data/src/anim_data/compression.rs:804-823 -/
def f32Decompress (F : FloatOps) (c : F32Compression) (default : F32) : BitRead F32 :=
  if c.bit_count.n = 0 then pure default
  else if F.eq c.min c.max then pure default
  else do
    let value ← BitReader.readU32 c.bit_count.n
    return F.decompress value c.min c.max c.bit_count.n

/-- /repo/ssbh_data/src/anim_data/compression.rs:825-835 -/
def f32Compress (F : FloatOps) (v : F32) (c : F32Compression) : BitWrite :=
  if c.bit_count.n = 0 then pure ()
  else BitWriter.write (F.compress v c.min c.max c.bit_count.n) c.bit_count.n

/-- /repo/ssbh_data/src/anim_data/compression.rs:637-648 -/
def vector3Decompress (F : FloatOps) (c : Vector3Compression) (default : Vector3) : BitRead Vector3 := do
  let x ← f32Decompress F c.x default.x
  let y ← f32Decompress F c.y default.y
  let z ← f32Decompress F c.z default.z
  return ⟨x, y, z⟩

/-- /repo/ssbh_data/src/anim_data/compression.rs:650-659 -/
def vector3Compress (F : FloatOps) (v : Vector3) (c : Vector3Compression) : BitWrite := do
  f32Compress F v.x c.x
  f32Compress F v.y c.y
  f32Compress F v.z c.z

/-- /repo/ssbh_data/src/anim_data/compression.rs:714-726 -/
def vector4Decompress (F : FloatOps) (c : Vector4Compression) (default : Vector4) : BitRead Vector4 := do
  let x ← f32Decompress F c.x default.x
  let y ← f32Decompress F c.y default.y
  let z ← f32Decompress F c.z default.z
  let w ← f32Decompress F c.w default.w
  return ⟨x, y, z, w⟩

/-- /repo/ssbh_data/src/anim_data/compression.rs:728-738 -/
def vector4Compress (F : FloatOps) (v : Vector4) (c : Vector4Compression) : BitWrite := do
  f32Compress F v.x c.x
  f32Compress F v.y c.y
  f32Compress F v.z c.z
  f32Compress F v.w c.w

/-- `Iterator::reduce(f).unwrap_or(default)` -/
def reduceOr (f : α → α → α) (default : α) : List α → α
  | [] => default
  | v :: vs => vs.foldl f v

/-- /repo/ssbh_data/src/anim_data/compression.rs:673-679 -/
def findMinF32 (F : FloatOps) : List F32 → F32 := reduceOr F.min 0
def findMaxF32 (F : FloatOps) : List F32 → F32 := reduceOr F.max 0

/-- /repo/ssbh_lib/src/vectors.rs:69-95 -/
def Vector3.fmin (F : FloatOps) (a b : Vector3) : Vector3 := ⟨F.min a.x b.x, F.min a.y b.y, F.min a.z b.z⟩
def Vector3.fmax (F : FloatOps) (a b : Vector3) : Vector3 := ⟨F.max a.x b.x, F.max a.y b.y, F.max a.z b.z⟩

/-- /repo/ssbh_lib/src/vectors.rs:263-291 -/
def Vector4.fmin (F : FloatOps) (a b : Vector4) : Vector4 :=
  ⟨F.min a.x b.x, F.min a.y b.y, F.min a.z b.z, F.min a.w b.w⟩
def Vector4.fmax (F : FloatOps) (a b : Vector4) : Vector4 :=
  ⟨F.max a.x b.x, F.max a.y b.y, F.max a.z b.z, F.max a.w b.w⟩

/-- /repo/ssbh_data/src/anim_data/compression.rs:681-707 -/
def findMinVector3 (F : FloatOps) : List Vector3 → Vector3 := reduceOr (Vector3.fmin F) ⟨0, 0, 0⟩
def findMaxVector3 (F : FloatOps) : List Vector3 → Vector3 := reduceOr (Vector3.fmax F) ⟨0, 0, 0⟩
def findMinVector4 (F : FloatOps) : List Vector4 → Vector4 := reduceOr (Vector4.fmin F) ⟨0, 0, 0, 0⟩
def findMaxVector4 (F : FloatOps) : List Vector4 → Vector4 := reduceOr (Vector4.fmax F) ⟨0, 0, 0, 0⟩

/-- `Vector4::xyz` -/
def Vector4.xyz (v : Vector4) : Vector3 := ⟨v.x, v.y, v.z⟩

/-! ## The trait `CompressedData` -/

/-- /repo/ssbh_data/src/anim_data/compression.rs:103-138 together with `Compression::bit_count`
(140-142). `args` is a function of the two header fields the implementations use (flags and bits per entry). -/
structure CompressedData (T : Type) where
  C : Type
  A : Type
  codec : Codec T
  compCodec : Codec C
  bitCount : C → CompressionFlags → Nat
  compress : T → C → CompressionFlags → BitWrite
  decompress : C → T → A → BitRead T
  getArgs : CompressionFlags → UInt16 → A
  getDefaultAndCompression : List T → Bool → T × C

/-- /repo/ssbh_data/src/anim_data/compression.rs:799-847 -/
def CompressedData.float (F : FloatOps) : CompressedData F32 where
  C := F32Compression
  A := Unit
  codec := f32
  compCodec := F32Compression.codec
  bitCount c _ := c.bitCount F
  compress v c _ := f32Compress F v c
  decompress c d _ := f32Decompress F c d
  getArgs _ _ := ()
  getDefaultAndCompression vs _ :=
    let min := findMinF32 F vs
    let max := findMaxF32 F vs
    (min, .fromRange F min max)

/-- /repo/ssbh_data/src/anim_data/compression.rs:709-749 -/
def CompressedData.vector4 (F : FloatOps) : CompressedData Vector4 where
  C := Vector4Compression
  A := Unit
  codec := Vector4.codec
  compCodec := Vector4Compression.codec
  bitCount c _ := c.bitCount F
  compress v c _ := vector4Compress F v c
  decompress c d _ := vector4Decompress F c d
  getArgs _ _ := ()
  getDefaultAndCompression vs _ :=
    let min := findMinVector4 F vs
    let max := findMaxVector4 F vs
    (min, .fromRange F min max)

/-- /repo/ssbh_data/src/anim_data/compression.rs:757-771. The sum is checked in debug builds and wraps in release
builds. -/
def u32Decompress (checked : Bool) (c : U32Compression) : BitRead UInt32 :=
  if c.bit_count.n = 0 then pure c.min
  else do
    let value ← BitReader.readU32 c.bit_count.n
    if value.toNat + c.min.toNat < 2 ^ 32 ∨ checked = false then return value + c.min else throw .panic

/-- /repo/ssbh_data/src/anim_data/compression.rs:773-783. The difference is checked in debug builds (it never overflows,
`C21_write_total`). -/
def u32Compress (v : UInt32) (c : U32Compression) : BitWrite :=
  if c.min ≤ v then BitWriter.write (v - c.min) c.bit_count.n else throw .panic

/-- /repo/ssbh_data/src/anim_data/compression.rs:751-797 -/
def CompressedData.patternIndex (F : FloatOps) : CompressedData UInt32 where
  C := U32Compression
  A := Unit
  codec := u32
  compCodec := U32Compression.codec
  bitCount c _ := c.bit_count.n
  compress v c _ := u32Compress v c
  decompress c _ _ := u32Decompress F.checked c
  getArgs _ _ := ()
  getDefaultAndCompression vs _ :=
    (0, ⟨reduceOr min 0 vs, reduceOr max 0 vs, defaultBitCount⟩)

/-- `Boolean(u8)`: the byte, /repo/ssbh_data/src/anim_data/compression.rs:849-850. A derived newtype. -/
abbrev Boolean := UInt8
def Boolean.codec : Codec Boolean := struct 1 Verif.u8
instance : LawC Boolean.codec := inferInstanceAs (LawC (struct _ _))

/-- /repo/ssbh_data/src/anim_data/compression.rs:852-866 -/
def Boolean.ofBool (b : Bool) : Boolean := if b then 1 else 0
/-- /repo/ssbh_data/src/anim_data/compression.rs:868-878 -/
def Boolean.toBool (b : Boolean) : Bool := b ≠ 0

/-- `u128` -/
def u128 : Codec (BitVec 128) := prim 16 BitVec.toNat (fun x => some (BitVec.ofNat 128 x))
instance : LawC u128 := prim_law (by decide) (fun a => a.isLt) (fun a => by simp)

/-- /repo/ssbh_data/src/anim_data/compression.rs:880-910 -/
def CompressedData.boolean : CompressedData Boolean where
  C := BitVec 128
  A := Nat
  codec := Boolean.codec
  compCodec := u128
  bitCount _ _ := 1
  compress v _ _ := BitWriter.writeBit v.toBool
  decompress _ _ bitsPerEntry := BitReader.readU8 bitsPerEntry
  getArgs _ bitsPerEntry := bitsPerEntry.toNat
  getDefaultAndCompression _ _ := (0, 0)

/-- /repo/ssbh_data/src/anim_data/compression.rs:547-571 -/
def uvDecompress (F : FloatOps) (c : UvTransformCompression) (d : UvTransform) (flags : CompressionFlags) :
    BitRead UvTransform := do
  let scale ←
    (if flags.uniformScale then do
      let s ← f32Decompress F c.scale_u d.scale_u
      return (s, s)
    else do
      let su ← f32Decompress F c.scale_u d.scale_u
      let sv ← f32Decompress F c.scale_v d.scale_v
      return (su, sv) : BitRead (F32 × F32))
  let rotation ← f32Decompress F c.rotation d.rotation
  let translateU ← f32Decompress F c.translate_u d.translate_u
  let translateV ← f32Decompress F c.translate_v d.translate_v
  return ⟨scale.1, scale.2, rotation, translateU, translateV⟩

/-- /repo/ssbh_data/src/anim_data/compression.rs:573-590 -/
def uvCompress (F : FloatOps) (v : UvTransform) (c : UvTransformCompression) (flags : CompressionFlags) :
    BitWrite := do
  (if flags.uniformScale then f32Compress F v.scale_u c.scale_u
  else do
    f32Compress F v.scale_u c.scale_u
    f32Compress F v.scale_v c.scale_v : BitWrite)
  f32Compress F v.rotation c.rotation
  f32Compress F v.translate_u c.translate_u
  f32Compress F v.translate_v c.translate_v

/-- /repo/ssbh_data/src/anim_data/compression.rs:542-630 -/
def CompressedData.uvTransform (F : FloatOps) : CompressedData UvTransform where
  C := UvTransformCompression
  A := CompressionFlags
  codec := UvTransform.codec
  compCodec := UvTransformCompression.codec
  bitCount c flags := c.bitCount F flags
  compress v c flags := uvCompress F v c flags
  decompress c d flags := uvDecompress F c d flags
  getArgs flags _ := flags
  getDefaultAndCompression vs _ :=
    let minScaleU := findMinF32 F (vs.map (·.scale_u))
    let maxScaleU := findMaxF32 F (vs.map (·.scale_u))
    let minScaleV := findMinF32 F (vs.map (·.scale_v))
    let maxScaleV := findMaxF32 F (vs.map (·.scale_v))
    let minRotation := findMinF32 F (vs.map (·.rotation))
    let maxRotation := findMaxF32 F (vs.map (·.rotation))
    let minTranslateU := findMinF32 F (vs.map (·.translate_u))
    let maxTranslateU := findMaxF32 F (vs.map (·.translate_u))
    let minTranslateV := findMinF32 F (vs.map (·.translate_v))
    let maxTranslateV := findMaxF32 F (vs.map (·.translate_v))
    (⟨minScaleU, minScaleV, minRotation, minTranslateU, minTranslateV⟩,
      ⟨.fromRange F minScaleU maxScaleU, .fromRange F minScaleV maxScaleV,
        .fromRange F minRotation maxRotation, .fromRange F minTranslateU maxTranslateU,
        .fromRange F minTranslateV maxTranslateV⟩)

/-- /repo/ssbh_data/src/anim_data/compression.rs:434-476 -/
def transformDecompress (F : FloatOps) (c : TransformCompression) (d : UncompressedTransform)
    (flags : CompressionFlags) : BitRead UncompressedTransform := do
  let scale ←
    (match flags.hasScale, flags.uniformScale with
    | true, true => do
      let s ← f32Decompress F c.scale.x d.scale.x
      return ⟨s, s, s⟩
    | true, false => vector3Decompress F c.scale d.scale
    | false, true => pure ⟨d.scale.x, d.scale.x, d.scale.x⟩
    | false, false => pure d.scale : BitRead Vector3)
  let rotationXyz ←
    (if flags.hasRotation then vector3Decompress F c.rotation d.rotation.xyz else pure d.rotation.xyz :
      BitRead Vector3)
  let translation ←
    (if flags.hasTranslation then vector3Decompress F c.translation d.translation else pure d.translation :
      BitRead Vector3)
  let rotationW ←
    (if flags.hasRotation then calculateRotationW F rotationXyz else pure d.rotation.w : BitRead F32)
  return ⟨scale, ⟨rotationXyz.x, rotationXyz.y, rotationXyz.z, rotationW⟩, translation, d.compensate_scale⟩

/-- /repo/ssbh_data/src/anim_data/compression.rs:478-505. `has_scale` is not looked at. -/
def transformCompress (F : FloatOps) (v : UncompressedTransform) (c : TransformCompression)
    (flags : CompressionFlags) : BitWrite := do
  (if flags.uniformScale then f32Compress F v.scale.x c.scale.x else vector3Compress F v.scale c.scale :
    BitWrite)
  (if flags.hasRotation then vector3Compress F v.rotation.xyz c.rotation else pure () : BitWrite)
  (if flags.hasTranslation then vector3Compress F v.translation c.translation else pure () : BitWrite)
  (if flags.hasRotation then BitWriter.writeBit (isSignNegative v.rotation.w) else pure () : BitWrite)

/-- /repo/ssbh_data/src/anim_data/compression.rs:429-540 -/
def CompressedData.transform (F : FloatOps) : CompressedData UncompressedTransform where
  C := TransformCompression
  A := CompressionFlags
  codec := UncompressedTransform.codec
  compCodec := TransformCompression.codec
  bitCount c flags := c.bitCount F flags
  compress v c flags := transformCompress F v c flags
  decompress c d flags := transformDecompress F c d flags
  getArgs flags _ := flags
  getDefaultAndCompression vs compensateScale :=
    let minScale := findMinVector3 F (vs.map (·.scale))
    let maxScale := findMaxVector3 F (vs.map (·.scale))
    let minRotation := findMinVector4 F (vs.map (·.rotation))
    let maxRotation := findMaxVector4 F (vs.map (·.rotation))
    let minTranslation := findMinVector3 F (vs.map (·.translation))
    let maxTranslation := findMaxVector3 F (vs.map (·.translation))
    (⟨minScale, minRotation, minTranslation, if compensateScale then 1 else 0⟩,
      ⟨.fromRange F minScale maxScale, .fromRange F minRotation.xyz maxRotation.xyz,
        .fromRange F minTranslation maxTranslation⟩)

end Verif
