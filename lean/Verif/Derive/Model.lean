import Verif.Lib.File
/-!
# Types which derive `SsbhWrite`

The derive macro for arbitrary type definitions, and the implementations of `ssbh_write` and `ssbh_lib` they can use. A type
definition is a value of `Ty`; its attributes are `Opts`. Used for C70 and C71.
-/

namespace Verif.Derive

/-- The attributes of a type: /repo/ssbh_write_derive/src/lib.rs:17-24,269-295. `repr` is a kind of type instead, because it
overrides the rest (lines 78-91). -/
structure Opts where
  padAfter : Option Nat := none
  alignAfter : Option Nat := none
  alignment : Option Nat := none
  magic : Option Bytes := none

mutual
/-- A Rust type with an implementation of `SsbhWrite`. -/
inductive Ty where
  /-- An integer or float of `n` bytes, or a `NonZero` integer: /repo/ssbh_write/src/lib.rs:204-268. -/
  | number (n : Nat)
  /-- `()`: /repo/ssbh_write/src/lib.rs:73-89 -/
  | unit
  /-- `Option<T>`: /repo/ssbh_write/src/lib.rs:139-171 -/
  | option (t : Ty)
  /-- `Vec<T>`: /repo/ssbh_write/src/lib.rs:270-291 -/
  | vec (t : Ty)
  /-- `[T; n]`: /repo/ssbh_write/src/lib.rs:91-103 -/
  | array (n : Nat) (t : Ty)
  /-- A derived enum with `repr` of a type of `n` bytes; the alignment of the Rust enum in memory is `m`. -/
  | repr (o : Opts) (n m : Nat)
  /-- `ssbh_write_modular_bitfield_impl!` for `n` bytes: /repo/ssbh_write/src/lib.rs:173-202 -/
  | bitfield (n : Nat)
  /-- A derived struct with named fields. -/
  | named (o : Opts) (fs : Fields)
  /-- A derived struct with unnamed fields. -/
  | tuple (o : Opts) (fs : Fields)
  /-- A derived enum. -/
  | enum (o : Opts) (vs : Variants)
  /-- `RelPtr64<T>` -/
  | ptr (t : Ty)
  /-- `SsbhArray<T>` -/
  | list (t : Ty)
  /-- `SsbhByteBuffer` -/
  | buffer
  /-- `SsbhStringN<n>` -/
  | text (n : Nat)
  /-- `SsbhEnum64<T>`, where `data_type` of the variants of `T` are the numbers. -/
  | tagged (tags : List UInt64) (t : Ty)

/-- Fields with `pad_after` and `align_after`. A struct or variant without fields does not compile (or panics in the macro); here
it has no bytes. -/
inductive Fields where
  | nil
  | cons (padAfter alignAfter : Option Nat) (t : Ty) (fs : Fields)

/-- Variants of an enum with `pad_after` and `align_after`. -/
inductive Variants where
  | nil
  | cons (padAfter alignAfter : Option Nat) (fs : Fields) (vs : Variants)
end

mutual
/-- The values of a type. -/
def Ty.Val : Ty → Type
  | .number n => Fin (256 ^ n)
  | .unit => Unit
  | .option t => Option t.Val
  | .vec t => List t.Val
  | .array n t => Vector t.Val n
  | .repr _ n _ => Fin (256 ^ n)
  | .bitfield n => Fin (256 ^ n)
  | .named _ fs => fs.Val
  | .tuple _ fs => fs.Val
  | .enum _ vs => vs.Val
  | .ptr t => Option t.Val
  | .list t => List t.Val
  | .buffer => Bytes
  | .text _ => Option CStr
  | .tagged _ t => Option t.Val

def Fields.Val : Fields → Type
  | .nil => Unit
  | .cons _ _ t fs => t.Val × fs.Val

def Variants.Val : Variants → Type
  | .nil => Empty
  | .cons _ _ fs vs => fs.Val ⊕ vs.Val
end

/-- The number of the variant. -/
def Variants.index : (vs : Variants) → vs.Val → Nat
  | .nil, v => nomatch v
  | .cons .., .inl _ => 0
  | .cons _ _ _ vs, .inr v => vs.index v + 1

def Ty.index : (t : Ty) → t.Val → Nat
  | .enum _ vs, v => vs.index v
  | _, _ => 0

/-! ## Alignment -/

/-- The alignments (`std::mem::align_of`) of a platform: integers and floats of `n` bytes, and pointers. -/
structure Platform where
  number : Nat → Nat
  word : Nat

/-- x86-64 and AArch64. -/
def p64 : Platform := ⟨id, 8⟩
/-- 32-bit WebAssembly. -/
def wasm32 : Platform := ⟨id, 4⟩
/-- 32-bit x86 (not on Windows). -/
def i686 : Platform := ⟨fun n => if 4 ≤ n then 4 else n, 4⟩

mutual
/-- `std::mem::align_of::<T>()`. The alignment of a struct or enum is the largest one of its fields; the number of a variant
has at most one byte. `RelPtr64` and `SsbhEnum64` contain an `Option<T>`, not a box: /repo/ssbh_lib/src/lib.rs:406-411,
/repo/ssbh_lib/src/enums.rs:59-66. A bitfield is an array of bytes. -/
def Ty.memory (P : Platform) : Ty → Nat
  | .number n => P.number n
  | .unit => 1
  | .option t => t.memory P
  | .vec _ => P.word
  | .array _ t => t.memory P
  | .repr _ _ m => m
  | .bitfield _ => 1
  | .named _ fs => fs.memory P
  | .tuple _ fs => fs.memory P
  | .enum _ vs => vs.memory P
  | .ptr t => t.memory P
  | .list _ => P.word
  | .buffer => P.word
  | .text _ => P.word
  | .tagged _ t => t.memory P

def Fields.memory (P : Platform) : Fields → Nat
  | .nil => 1
  | .cons _ _ t fs => max (t.memory P) (fs.memory P)

def Variants.memory (P : Platform) : Variants → Nat
  | .nil => 1
  | .cons _ _ fs vs => max (fs.memory P) (vs.memory P)
end

/-- `alignment_in_bytes`: the default is `align_of` (/repo/ssbh_write/src/lib.rs:68-70); others are cited below. -/
def Ty.align (P : Platform) : Ty → Nat
  | .option t => t.align P
  | .vec t => t.align P
  -- /repo/ssbh_write_derive/src/lib.rs:311-318
  | .repr o n _ => o.alignment.getD (P.number n)
  | .named o fs => o.alignment.getD (fs.memory P)
  | .tuple o fs => o.alignment.getD (fs.memory P)
  | .enum o vs => o.alignment.getD (vs.memory P)
  -- /repo/ssbh_write/src/lib.rs:193-195
  | .bitfield n => n
  -- /repo/ssbh_lib/src/arrays.rs:369-372
  | .list _ => 8
  | t => t.memory P

/-! ## Writers -/

/-- An implementation of `SsbhWrite`, without a reader. -/
def writer (size : α → Nat) (align : Nat) (write : α → W → Except WErr W) : Codec α :=
  ⟨size, align, write, fun _ _ => .error .eof⟩

/-- /repo/ssbh_write_derive/src/lib.rs:353-358 -/
def writePadAfter : Option Nat → W → W
  | some n, w => w.put (List.replicate n 0)
  | none, w => w

/-- /repo/ssbh_write_derive/src/lib.rs:360-377 -/
def writeAlignedAfter : Option Nat → W → W
  | some n, w => if 0 < n then alignEnd n w else w
  | none, w => w

/-- `write_pad_after` and `write_align_after` after something. -/
def andAfter (pad align : Option Nat) : Except WErr W → Except WErr W
  | .ok w => .ok (writeAlignedAfter align (writePadAfter pad w))
  | .error e => .error e

/-- `generate_ssbh_write`: /repo/ssbh_write_derive/src/lib.rs:297-351 -/
def generate (o : Opts) (align : Nat) (size : α → Nat) (writeData : α → W → Except WErr W) : Codec α :=
  writer size align fun v w => andAfter o.padAfter o.alignAfter (writeData v (w.bump (size v)))

/-- The length of the magic. -/
def Opts.magicSize (o : Opts) : Nat := (o.magic.map List.length).getD 0

/-- `generate_size_calculation`: /repo/ssbh_write_derive/src/lib.rs:379-403 -/
def generateSize (o : Opts) (fields : Nat) : Nat := fields + o.padAfter.getD 0 + o.magicSize

/-- `write_magic`: /repo/ssbh_write_derive/src/lib.rs:243-248; a byte string is an array of `u8`. -/
def writeMagic : Option Bytes → W → Except WErr W
  | some m, w => writeSlice u8 m w
  | none, w => .ok w

mutual
/-- `size_in_bytes`, `alignment_in_bytes` and `ssbh_write` of a type. -/
def Ty.codec (P : Platform) : (t : Ty) → Codec t.Val
  | .number n => writer (fun _ => n) ((Ty.number n).align P) fun v w => .ok (w.put (leBytes n v.val))
  | .unit => writer (fun _ => 0) 1 fun _ w => .ok w
  | .option t =>
    let c := t.codec P
    writer (fun | some v => c.size v | none => 0) (t.option.align P) fun
      | some v, w => c.write v (w.bump (c.size v))
      | none, w => .ok w
  | .vec t => writer (sliceSize (t.codec P)) (t.vec.align P) (writeSlice (t.codec P))
  | .array n t =>
    writer (fun v => sliceSize (t.codec P) v.toList) ((t.array n).align P) fun v => writeSlice (t.codec P) v.toList
  -- /repo/ssbh_write_derive/src/lib.rs:83-91
  | .repr o n m => generate o ((Ty.repr o n m).align P) (fun _ => n) fun v w => .ok (w.put (leBytes n v.val))
  | .bitfield n => writer (fun _ => n) n fun v w => .ok ((w.bump n).put (leBytes n v.val))
  -- `write_data_calculate_size_named`: /repo/ssbh_write_derive/src/lib.rs:237-267
  | .named o fs =>
    generate o ((Ty.named o fs).align P) (fun v => generateSize o ((fs.codec P).size v)) fun v w =>
      match writeMagic o.magic w with
      | .error e => .error e
      | .ok w1 => (fs.codec P).write v w1
  -- `write_data_calculate_size_unnamed`: /repo/ssbh_write_derive/src/lib.rs:217-235
  | .tuple o fs =>
    generate o ((Ty.tuple o fs).align P) (fun v => generateSize o ((fs.codec P).size v)) (fs.codec P).write
  -- `write_data_calculate_size_enum`: /repo/ssbh_write_derive/src/lib.rs:116-215
  | .enum o vs =>
    generate o ((Ty.enum o vs).align P) (fun v => generateSize o ((vs.codec P).size v)) (vs.codec P).write
  | .ptr t => { relPtr (t.codec P) with align := t.ptr.align P }
  | .list t => array (t.codec P)
  | .buffer => { byteBuffer with align := P.word }
  | .text n => { ssbhStringN n with align := P.word }
  | .tagged tags t =>
    let c := t.codec P
    { enum64 ⟨fun v => (tags.getD (t.index v) 0).toNat, c.align, c.size, c.write, fun _ => c.read⟩ with
      align := (t.tagged tags).align P }

/-- `write_named_fields`, `write_unnamed_fields`, `size_named_fields` and `size_unnamed_fields`:
/repo/ssbh_write_derive/src/lib.rs:422-526 -/
def Fields.codec (P : Platform) : (fs : Fields) → Codec fs.Val
  | .nil => writer (fun _ => 0) 1 fun _ w => .ok w
  | .cons pad al t fs =>
    writer (fun v => (t.codec P).size v.1 + pad.getD 0 + (fs.codec P).size v.2) 1 fun v w =>
      match andAfter pad al ((t.codec P).write v.1 w) with
      | .error e => .error e
      | .ok w1 => (fs.codec P).write v.2 w1

/-- The `match` of `write_data_calculate_size_enum`. -/
def Variants.codec (P : Platform) : (vs : Variants) → Codec vs.Val
  | .nil => writer nofun 1 nofun
  | .cons pad al fs vs =>
    writer (fun
      | .inl v => (fs.codec P).size v + pad.getD 0
      | .inr v => (vs.codec P).size v) 1 fun
      | .inl v, w => andAfter pad al ((fs.codec P).write v w)
      | .inr v, w => (vs.codec P).write v w
end

/-- `SsbhWrite::write` on an empty stream: /repo/ssbh_write/src/lib.rs:51-57 -/
def Ty.toBytes (P : Platform) (t : Ty) (v : t.Val) : Except WErr Bytes :=
  match (t.codec P).write v W.init with
  | .error e => .error e
  | .ok w => .ok w.buf

end Verif.Derive
