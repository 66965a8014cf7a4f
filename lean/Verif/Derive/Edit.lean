import Verif.Derive.Spec
import Verif.Lib.Near
/-!
# Changes of a value

How many bytes of a value have changed, if only numbers, bytes and characters have changed. Used for C93.
-/

namespace Verif.Derive

/-- The sum over the elements of lists of the same length. -/
def editAll (f : α → α → Option Nat) : List α → List α → Option Nat
  | [], [] => some 0
  | v :: vs, v' :: vs' => plus (f v v') (editAll f vs vs')
  | _, _ => none

/-- Both are null or both are not. -/
def editOption (f : α → α → Option Nat) : Option α → Option α → Option Nat
  | none, none => some 0
  | some v, some v' => f v v'
  | _, _ => none

/-- The bytes that changed, for the same number of bytes. -/
def editBytes (v v' : Bytes) : Option Nat := if v.length = v'.length then some (differences v v').card else none

mutual
/-- The number of bytes of the numbers that changed, plus the number of the bytes that changed in texts and buffers. The lengths
of lists, buffers and texts, the variants of enums and what is null must be the same. -/
def Ty.edit : (t : Ty) → t.Val → t.Val → Option Nat
  | .number n, v, v' => some (if v.val = v'.val then 0 else n)
  | .unit, _, _ => some 0
  | .option t, v, v' => editOption t.edit v v'
  | .vec t, v, v' => editAll t.edit v v'
  | .array _ t, v, v' => editAll t.edit v.toList v'.toList
  | .repr _ n _, v, v' => some (if v.val = v'.val then 0 else n)
  | .bitfield n, v, v' => some (if v.val = v'.val then 0 else n)
  | .named _ fs, v, v' => fs.edit v v'
  | .tuple _ fs, v, v' => fs.edit v v'
  | .enum _ vs, v, v' => vs.edit v v'
  | .ptr t, v, v' => editOption t.edit v v'
  | .list t, v, v' => editAll t.edit v v'
  | .buffer, v, v' => editBytes v v'
  | .text _, v, v' => editOption (fun s s' : CStr => editBytes s.bytes s'.bytes) v v'
  | .tagged _ t, v, v' => editOption t.edit v v'

def Fields.edit : (fs : Fields) → fs.Val → fs.Val → Option Nat
  | .nil, _, _ => some 0
  | .cons _ _ t fs, v, v' => plus (t.edit v.1 v'.1) (fs.edit v.2 v'.2)

def Variants.edit : (vs : Variants) → vs.Val → vs.Val → Option Nat
  | .nil, v, _ => nomatch v
  | .cons _ _ fs _, .inl v, .inl v' => fs.edit v v'
  | .cons _ _ _ vs, .inr v, .inr v' => vs.edit v v'
  | .cons _ _ _ _, .inl _, .inr _ => none
  | .cons _ _ _ _, .inr _, .inl _ => none
end

end Verif.Derive
