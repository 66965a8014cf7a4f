import Verif.Data.Compression
import Verif.Data.VectorData
/-!
# Binary floating point

The IEEE 754 operations that the Rust float types provide and /repo uses: addition, subtraction, multiplication,
division, square root, comparison and the conversions, for the formats `f16`, `f32` and `f64` with rounding to
nearest, ties to even. Rust fixes these results except for the sign and payload of a NaN: here every operation that
makes a NaN makes the same one.

Everything is arithmetic of natural numbers. The absolute value of a finite float is a whole number of *units*, the
smallest positive number of the format.
-/

namespace Verif.Ieee

/-- A format: the number of stored mantissa bits and the number of exponent bits. -/
structure Fmt where
  mb : Nat
  eb : Nat
  deriving DecidableEq, Repr

abbrev half : Fmt := ⟨10, 5⟩
abbrev single : Fmt := ⟨23, 8⟩
abbrev double : Fmt := ⟨52, 11⟩

namespace Fmt

/-- The unit is `2 ^ -scale`: 149 for `f32`. -/
def scale (F : Fmt) : Nat := 2 ^ (F.eb - 1) - 2 + F.mb

/-- The magnitude bits of infinity; larger ones are NaNs. -/
def inf (F : Fmt) : Nat := (2 ^ F.eb - 1) * 2 ^ F.mb

/-- The absolute value, in units, of the finite float with the magnitude bits `a`. -/
def units (F : Fmt) (a : Nat) : Nat :=
  if a < 2 ^ F.mb then a else (2 ^ F.mb + a % 2 ^ F.mb) * 2 ^ (a / 2 ^ F.mb - 1)

end Fmt

/-- `n / d` rounded to the nearest whole number, ties to even. -/
def roundDiv (n d : Nat) : Nat :=
  if 2 * (n % d) < d then n / d
  else if d < 2 * (n % d) then n / d + 1
  else n / d + n / d % 2

/-- The magnitude bits of the float nearest to `n / d` units. The mantissa of a float with exponent `k` counts
multiples of `2 ^ k` units. -/
def Fmt.round (F : Fmt) (n d : Nat) : Nat :=
  let k := Nat.log2 (n / d) - F.mb
  min (k * 2 ^ F.mb + roundDiv n (d * 2 ^ k)) F.inf

/-- A float: the sign bit and the magnitude bits. -/
structure Fl (F : Fmt) where
  neg : Bool
  mag : Nat
  deriving DecidableEq, Repr

namespace Fl
variable {F : Fmt}

def isNan (x : Fl F) : Bool := F.inf < x.mag
def isInf (x : Fl F) : Bool := x.mag = F.inf
def nan : Fl F := ⟨false, F.inf + 2 ^ (F.mb - 1)⟩
def infinity (neg : Bool) : Fl F := ⟨neg, F.inf⟩
def zero (neg : Bool) : Fl F := ⟨neg, 0⟩

/-- The value in units, with its sign. -/
def int (x : Fl F) : Int := if x.neg then -(F.units x.mag : Int) else F.units x.mag

def neg' (x : Fl F) : Fl F := ⟨!x.neg, x.mag⟩

def add (x y : Fl F) : Fl F :=
  if x.isNan || y.isNan then nan
  else if x.isInf then if y.isInf && x.neg != y.neg then nan else x
  else if y.isInf then y
  else
    let s := x.int + y.int
    if s = 0 then zero (x.neg && y.neg) else ⟨s < 0, F.round s.natAbs 1⟩

def sub (x y : Fl F) : Fl F := x.add y.neg'

def mul (x y : Fl F) : Fl F :=
  if x.isNan || y.isNan then nan
  else if x.isInf || y.isInf then
    if x.mag = 0 ∨ y.mag = 0 then nan else infinity (x.neg != y.neg)
  else ⟨x.neg != y.neg, F.round (F.units x.mag * F.units y.mag) (2 ^ F.scale)⟩

def div (x y : Fl F) : Fl F :=
  if x.isNan || y.isNan then nan
  else if x.isInf then if y.isInf then nan else infinity (x.neg != y.neg)
  else if y.isInf then zero (x.neg != y.neg)
  else if y.mag = 0 then if x.mag = 0 then nan else infinity (x.neg != y.neg)
  else ⟨x.neg != y.neg, F.round (F.units x.mag * 2 ^ F.scale) (F.units y.mag)⟩

end Fl

/-- The digits of the square root of `n` below `2 ^ k`, added to `r`. -/
def isqrtFrom : Nat → Nat → Nat → Nat
  | 0, _, r => r
  | k + 1, n, r => isqrtFrom k n (if (r + 2 ^ k) * (r + 2 ^ k) ≤ n then r + 2 ^ k else r)

/-- The whole part of the square root. -/
def isqrt (n : Nat) : Nat := isqrtFrom (Nat.log2 n / 2 + 1) n 0

/-- The magnitude bits of the float nearest to the square root of `n` units. -/
def Fmt.roundSqrt (F : Fmt) (n : Nat) : Nat :=
  let k := Nat.log2 (isqrt n) - F.mb
  let f := isqrt (n / 4 ^ k)
  let m := if 4 * n < 4 ^ k * ((2 * f + 1) * (2 * f + 1)) then f
    else if 4 ^ k * ((2 * f + 1) * (2 * f + 1)) < 4 * n then f + 1
    else f + f % 2
  min (k * 2 ^ F.mb + m) F.inf

namespace Fl
variable {F : Fmt}

def sqrt (x : Fl F) : Fl F :=
  if x.isNan then nan
  else if x.mag = 0 then x
  else if x.neg then nan
  else if x.isInf then x
  else ⟨false, F.roundSqrt (F.units x.mag * 2 ^ F.scale)⟩

/-- Orders floats that are not NaN; the two zeros are equal. -/
def key (x : Fl F) : Int := if x.neg then -(x.mag : Int) else x.mag

/-- `==` -/
def eq (x y : Fl F) : Bool := !x.isNan && !y.isNan && x.key = y.key
/-- `<=` -/
def le (x y : Fl F) : Bool := !x.isNan && !y.isNan && x.key ≤ y.key
/-- `<` -/
def lt (x y : Fl F) : Bool := !x.isNan && !y.isNan && x.key < y.key

/-- `min`: a NaN is ignored. Which one of two equal zeros is the result is left open by Rust; here it is the first. -/
def fmin (x y : Fl F) : Fl F := if x.isNan then y else if y.isNan then x else if x.key ≤ y.key then x else y
/-- `max` -/
def fmax (x y : Fl F) : Fl F := if x.isNan then y else if y.isNan then x else if y.key ≤ x.key then x else y

/-- `n as f32`, `n as f64` for an unsigned `n`. -/
def ofNat (n : Nat) : Fl F := ⟨false, F.round (n * 2 ^ F.scale) 1⟩

/-- `x as f64`, `x as f32`. -/
def convert (G : Fmt) (x : Fl F) : Fl G :=
  if x.isNan then nan
  else if x.isInf then infinity x.neg
  else ⟨x.neg, G.round (F.units x.mag * 2 ^ G.scale) (2 ^ F.scale)⟩

/-- `x as u32`, `x as u8` for `limit = 2 ^ bits - 1`: rounds to zero and saturates; a NaN becomes 0. -/
def toNat (limit : Nat) (x : Fl F) : Nat :=
  if x.isNan || x.neg then 0
  else if x.isInf then limit
  else Nat.min (F.units x.mag / 2 ^ F.scale) limit

/-- `x.round()` followed by `as`: ties away from zero. The rounded float is never stored, and is exact. -/
def roundToNat (limit : Nat) (x : Fl F) : Nat :=
  if x.isNan || x.neg then 0
  else if x.isInf then limit
  else Nat.min ((2 * F.units x.mag + 2 ^ F.scale) / (2 * 2 ^ F.scale)) limit

/-- `x.clamp(lo, hi)` -/
def clamp (x lo hi : Fl F) : Fl F :=
  let x := if x.lt lo then lo else x
  if hi.lt x then hi else x

end Fl

/-! ## Bit patterns -/

/-- `f32::from_bits` -/
def ofBits (x : UInt32) : Fl single := ⟨x.toNat.testBit 31, x.toNat % 2 ^ 31⟩
/-- `f32::to_bits` -/
def toBits (x : Fl single) : UInt32 := UInt32.ofNat (x.mag + if x.neg then 2 ^ 31 else 0)

/-- `f16::from_bits` -/
def ofBits16 (x : UInt16) : Fl half := ⟨x.toNat.testBit 15, x.toNat % 2 ^ 15⟩
/-- `f16::to_bits` -/
def toBits16 (x : Fl half) : UInt16 := UInt16.ofNat (x.mag + if x.neg then 2 ^ 15 else 0)

/-! ## The functions of the animation code

Written once for any arithmetic, so that the exact version is the same code over the rational numbers. -/

/-- The operations the two functions below use. -/
structure Arith (α : Type) where
  ofNat : Nat → α
  add : α → α → α
  sub : α → α → α
  mul : α → α → α
  div : α → α → α

/-- Floats as an arithmetic. -/
def floats (F : Fmt) : Arith (Fl F) := ⟨Fl.ofNat, Fl.add, Fl.sub, Fl.mul, Fl.div⟩

/-- /repo/ssbh_data/src/anim_data/compression.rs:390-395 -/
def bitMask (bitCount : Nat) : Nat := 2 ^ bitCount - 1

/-- /repo/ssbh_data/src/anim_data/compression.rs:397-410. `cast` is the final `as u32`. -/
def compressIn (A : Arith α) (cast : α → Nat) (value min max : α) (bitCount : Nat) : Nat :=
  let scale := bitMask bitCount
  let ratio := A.div (A.sub value min) (A.sub max min)
  let compressed := A.mul ratio (A.ofNat scale)
  cast compressed

/-- /repo/ssbh_data/src/anim_data/compression.rs:412-427 without the casts of `min`, `max` and the result. -/
def decompressIn (A : Arith α) (value : Nat) (min max : α) (bitCount : Nat) : α :=
  let scale := bitMask bitCount
  let t := A.div (A.ofNat value) (A.ofNat scale)
  A.add (A.mul min (A.sub (A.ofNat 1) t)) (A.mul max t)

/-- `w` in /repo/ssbh_data/src/anim_data/compression.rs:375-381. -/
def rotationW (x y z : Fl single) : Fl single :=
  let w2 := (Fl.ofNat 1).sub (((x.mul x).add (y.mul y)).add (z.mul z))
  if w2.neg then Fl.zero false else w2.sqrt

/-- The float operations of the animation code, as Rust computes them, in a build with overflow checks. -/
def ops : FloatOps where
  eq x y := (ofBits x).eq (ofBits y)
  ge x y := (ofBits y).le (ofBits x)
  min x y := toBits ((ofBits x).fmin (ofBits y))
  max x y := toBits ((ofBits x).fmax (ofBits y))
  compress v min max n :=
    UInt32.ofNat (compressIn (floats single) (Fl.toNat (2 ^ 32 - 1)) (ofBits v) (ofBits min) (ofBits max) n)
  decompress v min max n :=
    toBits ((decompressIn (floats double) v.toNat ((ofBits min).convert double) ((ofBits max).convert double) n).convert
      single)
  rotationW x y z := toBits (rotationW (ofBits x) (ofBits y) (ofBits z))
  lastFrame n := toBits ((Fl.ofNat n).sub (Fl.ofNat 1))
  checked := true

/-! ## The conversions of the mesh code -/

/-- `f16::from_f32` of the crate `half` as documented: nearest even; a NaN keeps its sign and the top of its payload and
becomes quiet. -/
def toHalf (x : UInt32) : UInt16 :=
  let v := ofBits x
  if v.isNan then toBits16 ⟨v.neg, half.inf ||| 0x200 ||| (v.mag % 2 ^ 23) >>> 13⟩
  else toBits16 (v.convert half)

/-- `f16::to_f32` -/
def ofHalf (x : UInt16) : UInt32 :=
  let v := ofBits16 x
  if v.isNan then toBits ⟨v.neg, single.inf ||| 0x400000 ||| (v.mag % 2 ^ 10) <<< 13⟩
  else toBits (v.convert single)

/-- /repo/ssbh_data/src/mesh_data/vector_data.rs:359-361 -/
def toByte (x : UInt32) : UInt8 :=
  UInt8.ofNat ((((ofBits x).clamp (Fl.ofNat 0) (Fl.ofNat 1)).mul (Fl.ofNat 255)).roundToNat 255)

/-- /repo/ssbh_data/src/mesh_data/vector_data.rs:148-160: the byte as a float, divided by 255. -/
def ofByte (x : UInt8) : UInt32 := toBits ((Fl.ofNat x.toNat).div (Fl.ofNat 255))

/-- The conversions of the mesh code, as Rust computes them. -/
def conv : FloatConv := ⟨toHalf, ofHalf, toByte, ofByte⟩

end Verif.Ieee
