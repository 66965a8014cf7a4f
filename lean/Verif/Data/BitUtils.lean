import Verif.Lib.Core
/-!
# Bit streams of compressed animation tracks

Models /repo/ssbh_data/src/anim_data/bitutils.rs on top of the parts of `bitvec` it uses. A
`BitVec<u8, Lsb0>` is a `List Bool`: bit `i` is bit `i % 8` of byte `i / 8`, low bits first.
-/

namespace Verif

/-- Failures of the bit streams and of the animation code above them.
* `notEnoughBits`: `BitReadError::NotEnoughBits`, /repo/ssbh_data/src/anim_data/bitutils.rs:9-13.
* `panic`: the thread panics (`unwrap`, slice index, `bitvec` width check, debug overflow check).
* the others: /repo/ssbh_data/src/anim_data.rs:138-205. -/
inductive AnimErr where
  | notEnoughBits
  | panic
  | write (e : WErr)
  | read (e : RErr)
  | unsupportedVersion (major minor : Nat)
  | invalidFinalFrameIndex (index : UInt32)
  | bufferIndexOutOfRange (index bufferCount : Nat)
  | unexpectedBitCount (expected actual : Nat)
  | invalidTrackDataRange (start size bufferSize : Nat)
  | malformedHeader
  deriving DecidableEq, Repr

/-- Bits of a byte, low bit first (`Lsb0`). -/
def byteBits (b : UInt8) : List Bool := (List.range 8).map b.toNat.testBit

/-- `load_le`: the first bit is the least significant one. -/
def loadLe : List Bool → Nat
  | [] => 0
  | b :: bs => b.toNat + 2 * loadLe bs

/-- `store_le` of a `bits.len()` wide number. -/
def storeLe (n value : Nat) : List Bool := (List.range n).map value.testBit

/-- /repo/ssbh_data/src/anim_data/bitutils.rs:4-7 -/
structure BitReader where
  bits : List Bool
  index : Nat
  deriving DecidableEq, Repr

/-- A function taking `&mut BitReader`. -/
abbrev BitRead := StateT BitReader (Except AnimErr)

namespace BitReader

/-- /repo/ssbh_data/src/anim_data/bitutils.rs:16-21 -/
def fromSlice (bytes : Bytes) : BitReader := ⟨bytes.flatMap byteBits, 0⟩

/-- `read_u8` (`max = 8`) and `read_u32` (`max = 32`),
/repo/ssbh_data/src/anim_data/bitutils.rs:23-45. `load_le` panics for zero bits and for more bits than the
integer has. -/
def readUint (max n : Nat) : BitRead Nat := fun r =>
  if r.index + n ≤ r.bits.length then
    if n = 0 ∨ max < n then .error .panic
    else .ok (loadLe ((r.bits.drop r.index).take n), { r with index := r.index + n })
  else .error .notEnoughBits

/-- /repo/ssbh_data/src/anim_data/bitutils.rs:23-33 -/
def readU8 (n : Nat) : BitRead UInt8 := do return UInt8.ofNat (← readUint 8 n)

/-- /repo/ssbh_data/src/anim_data/bitutils.rs:35-45 -/
def readU32 (n : Nat) : BitRead UInt32 := do return UInt32.ofNat (← readUint 32 n)

/-- /repo/ssbh_data/src/anim_data/bitutils.rs:47-58 -/
def readBit : BitRead Bool := fun r =>
  match r.bits[r.index]? with
  | some b => .ok (b, { r with index := r.index + 1 })
  | none => .error .notEnoughBits

end BitReader

/-- /repo/ssbh_data/src/anim_data/bitutils.rs:64-67 -/
structure BitWriter where
  bits : List Bool
  index : Nat
  deriving DecidableEq, Repr

/-- A function taking `&mut BitWriter`. -/
abbrev BitWrite := StateT BitWriter (Except AnimErr) Unit

namespace BitWriter

/-- /repo/ssbh_data/src/anim_data/bitutils.rs:70-72 -/
def new (bits : List Bool) : BitWriter := ⟨bits, 0⟩

/-- Overwrite `bs.length` bits at the index and move behind them. -/
def splice (bs : List Bool) (w : BitWriter) : BitWriter :=
  ⟨w.bits.take w.index ++ bs ++ w.bits.drop (w.index + bs.length), w.index + bs.length⟩

/-- /repo/ssbh_data/src/anim_data/bitutils.rs:74-78. The slice index panics out of range, `store_le` for
zero bits or more bits than a `u32` has; otherwise the low bits of the value are stored. -/
def write (value : UInt32) (n : Nat) : BitWrite := fun w =>
  if w.index + n ≤ w.bits.length ∧ n ≠ 0 ∧ n ≤ 32 then .ok ((), w.splice (storeLe n value.toNat))
  else .error .panic

/-- /repo/ssbh_data/src/anim_data/bitutils.rs:80-84 -/
def writeBit (value : Bool) : BitWrite := fun w =>
  if w.index < w.bits.length then .ok ((), w.splice [value]) else .error .panic

end BitWriter

/-- The bytes behind a `BitVec<u8, Lsb0>`. Bits of the last byte which are not in use are taken to be zero:
the vectors of `create_compressed_buffer` are grown from an empty one with `resize(.., false)`. -/
def bitsToBytes (bits : List Bool) : Bytes :=
  (List.range ((bits.length + 7) / 8)).map fun i => UInt8.ofNat (loadLe ((bits.drop (8 * i)).take 8))

/-- /repo/ssbh_data/src/anim_data/bitutils.rs:86-88 -/
def BitWriter.intoBytes (w : BitWriter) : Bytes := bitsToBytes w.bits

end Verif
