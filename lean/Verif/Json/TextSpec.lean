import Verif.Json.Core
import Verif.Float.Nearest
/-!
# What can be expected of the text of JSON

Specification: the values that have a text which is read back, and the decimals that can be written for a float. Nothing here refers to
the printer or the parser.
-/

namespace Verif

mutual
/-- The numbers are those which `serde_json` writes: integers of 64 bits and finite floats. -/
def J.fits : J → Bool
  | .num n => -2 ^ 63 ≤ n && n < 2 ^ 64
  | .flt x => x.toNat / 2 ^ 23 % 256 ≠ 255
  | .arr l => J.fitsList l
  | .obj l => J.fitsEntries l
  | _ => true

def J.fitsList : List J → Bool
  | [] => true
  | j :: l => j.fits && J.fitsList l

def J.fitsEntries : List (String × J) → Bool
  | [] => true
  | (_, j) :: l => j.fits && J.fitsEntries l
end

mutual
/-- How deep arrays and objects are nested. -/
def J.depth : J → Nat
  | .arr l => J.depthList l + 1
  | .obj l => J.depthEntries l + 1
  | _ => 0

def J.depthList : List J → Nat
  | [] => 0
  | j :: l => max j.depth (J.depthList l)

def J.depthEntries : List (String × J) → Nat
  | [] => 0
  | (_, j) :: l => max j.depth (J.depthEntries l)
end

namespace Json
open Verif.Ieee

/-- The decimal `m * 10 ^ k` stands for the float with the magnitude bits `a`: it has at most nine digits, no other float is nearer to
it, and the float differs from it by less than one unit of its last digit. -/
structure Decimal (a m : Nat) (k : Int) : Prop where
  pos : 0 < m
  few : m < 10 ^ 9
  rounds : single.nearest (m * 10 ^ k) = a
  close : |(m * 10 ^ k : ℚ) - single.units a / 2 ^ 149| < 10 ^ k

/-- The printer of decimals chooses one that stands for the float. -/
def Prints (P : Nat → Nat × Int) : Prop := ∀ a, 0 < a → a < single.inf → Decimal a (P a).1 (P a).2

end Json
end Verif
