import Verif.Json.Core
/-!
# JSON documents

Specification: a `Shape` says which JSON documents are accepted for a type, and `Shape.canon` gives the document that
the same value is written as, the canonical document. Nothing here refers to the types or their conversions.
-/

namespace Verif

mutual
/-- The kinds of documents. -/
inductive Shape where
  | bool
  /-- An integer from `lo` to `hi`. -/
  | int (lo hi : Int)
  | float
  | text
  /-- A text without the character U+0000. -/
  | ctext
  /-- Bytes with two hexadecimal digits each. -/
  | hex
  | unit
  | list (s : Shape)
  | array (n : Nat) (s : Shape)
  /-- `null`, or a document of the shape. -/
  | opt (s : Shape)
  /-- A document of the shape, or `null` for the document `d`. -/
  | orNull (s : Shape) (d : J)
  | record (fs : Shape.Fields)
  /-- One of the names. -/
  | names (l : List String)
  /-- An object with one entry, which has one of the names. -/
  | choice (vs : Shape.Variants)

/-- The fields of a struct: what a missing field stands for (`none` if it must be there), and whether it can be missing
at the end of an array. -/
inductive Shape.Fields where
  | nil
  | cons (name : String) (missing : Option J) (tail : Bool) (s : Shape) (fs : Shape.Fields)

inductive Shape.Variants where
  | nil
  | cons (name : String) (s : Shape) (vs : Shape.Variants)
end

namespace Shape

/-- The document of a float. -/
def ofFloat (x : F32) : J := if x.toNat / 2 ^ 23 % 256 = 255 then .null else .flt x

/-- The float nearest to an integer. -/
def nearest (n : Int) : F32 :=
  if 0 ≤ n then Ieee.toBits (Ieee.Fl.ofNat n.toNat) else Ieee.toBits (Ieee.Fl.neg' (Ieee.Fl.ofNat n.natAbs))

def isHex (c : Char) : Bool := c.isDigit || ('a' ≤ c && c ≤ 'f') || ('A' ≤ c && c ≤ 'F')

/-- Not two entries with the same name. -/
def once (l : List (String × J)) (n : String) : Bool := l.countP (fun e => e.1 == n) ≤ 1

/-- A field which must be there. -/
def Fields.need (name : String) (s : Shape) : Fields → Fields := .cons name none false s

/-- A field which is `null` if it is missing in an object. -/
def Fields.may (name : String) (s : Shape) : Fields → Fields := .cons name (some .null) false s

/-- A field with a default value. -/
def Fields.default (name : String) (s : Shape) (d : J) : Fields → Fields := .cons name (some d) true s

def struct (l : List (Fields → Fields)) : Shape := .record (l.foldr (fun f fs => f fs) .nil)

def variants (l : List (String × Shape)) : Shape := .choice (l.foldr (fun e vs => .cons e.1 e.2 vs) .nil)

/-- The bytes of a bit field. -/
def bits (n : Nat) : Shape := struct [.need "bytes" (.array n (.int 0 255))]

/-- A tagged value behind a pointer. -/
def tagged (s : Shape) : Shape := struct [.need "data" (.opt s)]

def Fields.names : Fields → List String
  | .nil => []
  | .cons n _ _ _ fs => n :: fs.names

mutual
/-- The canonical document, if the document is accepted. -/
def canon : Shape → J → Option J
  | .bool, .bool b => some (.bool b)
  | .int lo hi, .num n => if lo ≤ n ∧ n ≤ hi then some (.num n) else none
  | .float, .flt x => some (ofFloat x)
  | .float, .num n => some (ofFloat (nearest n))
  | .text, .str s => some (.str s)
  | .ctext, .str s => if Char.ofNat 0 ∈ s.toList then none else some (.str s)
  | .hex, .str s =>
    if s.toList.length % 2 = 0 ∧ s.toList.all isHex then some (.str (String.ofList (s.toList.map Char.toLower))) else none
  | .unit, .null => some .null
  | .list s, .arr l => (l.mapM (fun j => s.canon j)).map .arr
  | .array n s, .arr l => if l.length = n then (l.mapM (fun j => s.canon j)).map .arr else none
  | .opt _, .null => some .null
  | .opt s, j => s.canon j
  | .orNull _ d, .null => some d
  | .orNull s _, j => s.canon j
  | .record fs, .obj l => if fs.names.all (once l) then (fs.ofEntries l).map .obj else none
  | .record fs, .arr l => (fs.ofElements l).map .obj
  | .names l, .str s => if s ∈ l then some (.str s) else none
  | .names l, .obj [(s, .null)] => if s ∈ l then some (.str s) else none
  | .choice vs, .obj [(n, j)] => vs.canon n j
  | _, _ => none

/-- The entries of the struct, in their order. Unknown names are ignored. -/
def Fields.ofEntries : Fields → List (String × J) → Option (List (String × J))
  | .nil, _ => some []
  | .cons n missing _ s fs, l =>
    match (l.lookup n).elim missing (fun j => s.canon j), fs.ofEntries l with
    | some x, some xs => some ((n, x) :: xs)
    | _, _ => none

/-- The same for an array with the values of all fields. -/
def Fields.ofElements : Fields → List J → Option (List (String × J))
  | .nil, [] => some []
  | .nil, _ :: _ => none
  | .cons n _ _ s fs, j :: l =>
    match s.canon j, fs.ofElements l with
    | some x, some xs => some ((n, x) :: xs)
    | _, _ => none
  | .cons n missing tail _ fs, [] =>
    match (if tail then missing else none), fs.ofElements [] with
    | some x, some xs => some ((n, x) :: xs)
    | _, _ => none

def Variants.canon : Variants → String → J → Option J
  | .nil, _, _ => none
  | .cons a s vs, n, j => if n = a then (s.canon j).map (fun x => .obj [(a, x)]) else vs.canon n j
end

end Shape

mutual
/-- No number is too large for a float. -/
def J.inRange : J → Bool
  | .num n => (Shape.nearest n).toNat / 2 ^ 23 % 256 ≠ 255
  | .flt x => x.toNat / 2 ^ 23 % 256 ≠ 255
  | .arr l => J.inRangeList l
  | .obj l => J.inRangeEntries l
  | _ => true

def J.inRangeList : List J → Bool
  | [] => true
  | j :: l => j.inRange && J.inRangeList l

def J.inRangeEntries : List (String × J) → Bool
  | [] => true
  | (_, j) :: l => j.inRange && J.inRangeEntries l
end

end Verif
