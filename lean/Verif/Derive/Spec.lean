import Verif.Derive.Model
import Verif.Image.Spec
/-!
# The bytes of values of types which derive `SsbhWrite`
-/

namespace Verif.Derive
open Image

/-- `n` zero bytes after something. -/
def after : Option Nat → Piece
  | none => nothing
  | some n => padding n

/-- The given bytes. -/
def magic : Option Bytes → Piece
  | none => nothing
  | some bs => many Image.u8 bs

mutual
/-- Fields are one after the other, with the bytes of `magic` before them and zeros for `pad_after`; `None` has no bytes; the
targets of pointers are described in `Image`. -/
def Ty.image (P : Platform) : (t : Ty) → t.Val → Piece
  | .number n, v => number n v.val
  | .unit, _ => nothing
  | .option _, none => nothing
  | .option t, some v => t.image P v
  | .vec t, v => many (t.image P) v
  | .array _ t, v => many (t.image P) v.toList
  | .repr _ n _, v => number n v.val
  | .bitfield n, v => number n v.val
  | .named o fs, v => magic o.magic ▹ fs.image P v ▹ after o.padAfter
  | .tuple o fs, v => fs.image P v ▹ after o.padAfter
  | .enum o vs, v => vs.image P v ▹ after o.padAfter
  | .ptr t, v => pointer (t.align P) (record (t.image P)) v
  | .list t, v => list (t.image P) v
  | .buffer, v => Image.buffer v
  | .text n, v => Image.text n v
  | .tagged tags t, v =>
    pointer (t.align P) (record (t.image P)) v ▹ number 8 (match v with | none => 0 | some v => (tags.getD (t.index v) 0).toNat)

def Fields.image (P : Platform) : (fs : Fields) → fs.Val → Piece
  | .nil, _ => nothing
  | .cons pad _ t fs, v => t.image P v.1 ▹ after pad ▹ fs.image P v.2

def Variants.image (P : Platform) : (vs : Variants) → vs.Val → Piece
  | .nil, v => nomatch v
  | .cons pad _ fs _, .inl v => fs.image P v ▹ after pad
  | .cons _ _ _ vs, .inr v => vs.image P v
end

/-! ## Definitions for which this holds -/

/-- The sum, if both are known. -/
def plus : Option Nat → Option Nat → Option Nat
  | some a, some b => some (a + b)
  | _, _ => none

mutual
/-- The size of all values, if they have the same one because of their type. -/
def Ty.width : Ty → Option Nat
  | .number n => some n
  | .unit => some 0
  | .option _ => none
  | .vec _ => none
  | .array n t => t.width.map (n * ·)
  | .repr _ n _ => some n
  | .bitfield n => some n
  | .named o fs => plus fs.width (some (o.padAfter.getD 0 + o.magicSize))
  | .tuple o fs => plus fs.width (some (o.padAfter.getD 0))
  | .enum o vs => plus (vs.width none) (some (o.padAfter.getD 0))
  | .ptr _ => some 8
  | .list _ => some 16
  | .buffer => some 16
  | .text _ => some 8
  | .tagged _ _ => some 16

def Fields.width : Fields → Option Nat
  | .nil => some 0
  | .cons pad _ t fs => plus (plus t.width (some (pad.getD 0))) fs.width

/-- All variants have the width of the ones before (if any). -/
def Variants.width : Option Nat → Variants → Option Nat
  | k, .nil => k
  | none, .cons pad _ fs vs =>
    match plus fs.width (some (pad.getD 0)) with
    | some k => vs.width (some k)
    | none => none
  | some k, .cons pad _ fs vs => if plus fs.width (some (pad.getD 0)) = some k then vs.width (some k) else none
end

/-- Elements of sequences have the same size, not zero. -/
def Ty.element (t : Ty) : Bool := match t.width with | some k => 0 < k | none => false

/-- No `align_after`, and an alignment. -/
def Opts.plain (o : Opts) : Bool := o.alignAfter.isNone && o.alignment != some 0

/-- The sizes of integers and floats. -/
def sizes : List Nat := [1, 2, 4, 8, 16]

mutual
/-- Definitions as intended: elements of a fixed size; `magic` only for structs with named fields; no `align_after` inside; no
`pad_after` for `repr`. -/
def Ty.ok : Ty → Bool
  | .number n => sizes.contains n
  | .unit => true
  | .option t => t.ok
  | .vec t => t.ok && t.element
  | .array _ t => t.ok && t.element
  | .repr o n m => sizes.contains n && 0 < m && o.plain && o.padAfter.isNone
  | .bitfield n => 0 < n
  | .named o fs => fs.ok && o.plain
  | .tuple o fs => fs.ok && o.plain && o.magic.isNone
  | .enum o vs => vs.ok && o.plain && o.magic.isNone
  | .ptr t => t.ok
  | .list t => t.ok && t.element
  | .buffer => true
  | .text n => 0 < n
  | .tagged _ t => t.ok

def Fields.ok : Fields → Bool
  | .nil => true
  | .cons _ al t fs => al.isNone && t.ok && fs.ok

def Variants.ok : Variants → Bool
  | .nil => true
  | .cons _ al fs vs => al.isNone && fs.ok && vs.ok
end

/-- Integers are at multiples of their alignment. -/
structure Platform.Ok (P : Platform) : Prop where
  word : 0 < P.word
  number : ∀ n ∈ sizes, 0 < P.number n ∧ P.number n ∣ n

end Verif.Derive
