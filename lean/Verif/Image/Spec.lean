import Verif.Lib.Codecs
/-!
# The bytes of written files

What a written file looks like, byte by byte: the fields of a structure stand one after the other, and what its pointers
refer to is appended to the end of the file in the order of the fields. Nothing is ever overwritten, and there is no cursor.
Used for C69.
-/

namespace Verif.Image

/-- The first multiple of `a` which is not before `m`. -/
def next (a m : Nat) : Nat := m + (a - m % a) % a

/-- `n` zero bytes. -/
def zero (n : Nat) : Bytes := List.replicate n 0

/-- `x` in `n` bytes, from the least to the most significant one. -/
def le (n x : Nat) : Bytes := (List.range n).map fun i => UInt8.ofNat (x / 256 ^ i)

/-- The bytes of a field, the bytes appended to the file for it, and the first position for what is appended next. -/
structure Out where
  here : Bytes
  appended : Bytes
  free : Nat

/-- A field of `size` bytes. `make` is given the position of the field, the length of the file up to now, and the first
position for what is appended. The latter can be larger than the length of the file; the file is filled with zeros when
something is appended. -/
structure Piece where
  size : Nat
  make : (pos stop free : Nat) → Out

def number (n x : Nat) : Piece := ⟨n, fun _ _ free => ⟨le n x, [], free⟩⟩

def u8 (v : UInt8) : Piece := number 1 v.toNat
def u16 (v : UInt16) : Piece := number 2 v.toNat
def u32 (v : UInt32) : Piece := number 4 v.toNat
def u64 (v : UInt64) : Piece := number 8 v.toNat

/-- The bits of a float. -/
def f32 (v : F32) : Piece := number 4 v.toNat

/-- A number that can be negative, modulo 2^16 or 2^32. -/
def i16 (v : Int16) : Piece := number 2 (v.toInt % 65536).toNat
def i32 (v : Int32) : Piece := number 4 (v.toInt % 4294967296).toNat

/-- The number of the variant. -/
def enum (n : Nat) {tags : List Nat} (v : ReprEnum tags) : Piece := number n v.tag

/-- Padding. -/
def padding (n : Nat) : Piece := ⟨n, fun _ _ free => ⟨zero n, [], free⟩⟩

def nothing : Piece := ⟨0, fun _ _ free => ⟨[], [], free⟩⟩

/-- Two fields, one after the other. -/
def Piece.and (a b : Piece) : Piece :=
  ⟨a.size + b.size, fun pos stop free =>
    let x := a.make pos stop free
    let y := b.make (pos + a.size) (stop + x.appended.length) x.free
    ⟨x.here ++ y.here, x.appended ++ y.appended, y.free⟩⟩

infixr:65 " ▹ " => Piece.and

/-- Fields of the same kind. -/
def many (f : α → Piece) : List α → Piece
  | [] => nothing
  | v :: vs => f v ▹ many f vs

def vector {n : Nat} (f : α → Piece) (v : Vector α n) : Piece := many f v.toList

def unit (_ : Unit) : Piece := nothing

/-- Append `bs` at `start` to a file of length `stop`. -/
def fill (stop start : Nat) (bs : Bytes) : Bytes := if bs = [] then [] else zero (start - stop) ++ bs

/-- The bytes for the target of a pointer, if it is at the position, and the first position after them. -/
abbrev Target (α : Type) := α → Nat → Bytes × Nat

/-- A structure as a target: its fields, and then what they refer to. -/
def record (f : α → Piece) : Target α := fun v start =>
  let x := (f v).make start (start + (f v).size) (start + (f v).size)
  (x.here ++ x.appended, x.free)

/-- A text: an empty one is `a` zero bytes, other ones end with a zero byte. What follows is at a multiple of `a`. -/
def chars (a : Nat) : Target CStr := fun s start =>
  let bs := if s.bytes = [] then zero a else s.bytes ++ [0]
  (bs, next a (start + bs.length))

/-- A pointer has the distance to its target. The target is at the first multiple of `a`. Null is zero. -/
def pointer (a : Nat) (g : Target α) : Option α → Piece
  | none => number 8 0
  | some v => ⟨8, fun pos stop free =>
    let start := next a free
    ⟨le 8 (start - pos), fill stop start (g v start).1, (g v start).2⟩⟩

def text (a : Nat) : SsbhString → Piece := pointer a (chars a)

/-- The distance to the elements and their number. The elements are at a multiple of 8. An empty list is zero, but what is
appended next is at a multiple of 8. -/
def list (f : α → Piece) (vs : List α) : Piece :=
  ⟨16, fun pos stop free =>
    let start := next 8 free
    if vs = [] then ⟨le 8 0 ++ le 8 0, [], start⟩
    else
      let x := record (many f) vs start
      ⟨le 8 (start - pos) ++ le 8 vs.length, fill stop start x.1, x.2⟩⟩

/-- The same for raw bytes. -/
def buffer (bs : Bytes) : Piece :=
  ⟨16, fun pos stop free =>
    let start := next 8 free
    if bs = [] then ⟨le 8 0 ++ le 8 0, [], start⟩
    else ⟨le 8 (start - pos) ++ le 8 bs.length, fill stop start bs, start + bs.length⟩⟩

/-- A pointer to data and the number of its type. -/
def tagged (tag : α → Nat) (g : Target α) (v : Option α) : Piece :=
  pointer 8 g v ▹ number 8 (match v with | none => 0 | some v => tag v)

/-- A pointer which has the position of its target. -/
def absolute (a : Nat) (g : Target α) : Option α → Piece
  | none => number 8 0
  | some v => ⟨8, fun _ stop free =>
    let start := next a free
    ⟨le 8 start, fill stop start (g v start).1, (g v start).2⟩⟩

/-- A file: a name of 4 bytes, the version, the number the length is a multiple of, and the fields. -/
structure File where
  magic : Bytes
  major : Nat
  minor : Nat
  align : Nat
  fields : Piece

/-- The bytes before the last padding: 24 bytes with the names and the version, the fields, and what they refer to. -/
def File.body (f : File) : Bytes :=
  [0x48, 0x42, 0x53, 0x53] ++ le 8 64 ++ le 4 0 ++ f.magic ++ le 2 f.major ++ le 2 f.minor ++
    (record (fun x => x) f.fields 24).1

def File.bytes (f : File) : Bytes := f.body ++ zero (next f.align f.body.length - f.body.length)

/-- The first position after everything. -/
def File.stop (f : File) : Nat := (record (fun x => x) f.fields 24).2

end Verif.Image
