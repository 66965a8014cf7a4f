import Verif.Lib.Core
/-!
# Models of the `SsbhWrite` / `BinRead` implementations

One combinator for every generic implementation in `ssbh_write`, `ssbh_write_derive` and `ssbh_lib`.
-/

namespace Verif
open Except

/-! ## Primitives -/

/-- Integers, floats (as bit patterns) and `repr` enums: `n` little endian bytes without moving
`data_ptr`. Writers: /repo/ssbh_write/src/lib.rs:204-229 (numbers) and
/repo/ssbh_write_derive/src/lib.rs:83-91,311-317 (`#[ssbhwrite(repr(..))]`). Readers: binrw numbers, and
`#[br(repr(..))]` enums which fail on an unlisted tag (`ofNat` returns `none`). -/
def prim (n : Nat) (toNat : α → Nat) (ofNat : Nat → Option α) : Codec α where
  size _ := n
  align := n
  write a w := .ok (w.put (leBytes n (toNat a)))
  read b p :=
    match readLe n b p with
    | .error e => .error e
    | .ok (x, p') =>
      match ofNat x with
      | some a => .ok (a, p')
      | none => .error .badTag

def u8 : Codec UInt8 := prim 1 UInt8.toNat (fun x => some (UInt8.ofNat x))
def u16 : Codec UInt16 := prim 2 UInt16.toNat (fun x => some (UInt16.ofNat x))
def u32 : Codec UInt32 := prim 4 UInt32.toNat (fun x => some (UInt32.ofNat x))
def u64 : Codec UInt64 := prim 8 UInt64.toNat (fun x => some (UInt64.ofNat x))

/-- i32 as its two's complement bits. -/
def i32 : Codec Int32 :=
  prim 4 (fun x => x.toUInt32.toNat) (fun x => some (UInt32.ofNat x).toInt32)

/-- i16 as its two's complement bits. -/
def i16 : Codec Int16 :=
  prim 2 (fun x => x.toUInt16.toNat) (fun x => some (UInt16.ofNat x).toInt16)

/-- A float is modelled by its bit pattern. -/
abbrev F32 := UInt32
def f32 : Codec F32 := u32

/-- `()`: /repo/ssbh_write/src/lib.rs:73-89 -/
def unitC : Codec Unit where
  size _ := 0
  align := 1
  write _ w := .ok w
  read _ p := .ok ((), p)

/-- A fieldless enum with `#[br(repr(..))]`: a value is identified with its tag, one of the listed
numbers. -/
structure ReprEnum (tags : List Nat) where
  tag : Nat
  mem : tag ∈ tags
  deriving DecidableEq, Repr

def ReprEnum.ofNat (tags : List Nat) (x : Nat) : Option (ReprEnum tags) :=
  if h : x ∈ tags then some ⟨x, h⟩ else none

/-! ## Structures -/

/-- Two consecutive fields of a struct (fields are written and read in order),
/repo/ssbh_write_derive/src/lib.rs:269-295. A struct body is a right nested sequence of these. -/
def pair (a : Codec α) (b : Codec β) : Codec (α × β) where
  size v := a.size v.1 + b.size v.2
  align := max a.align b.align
  write v w :=
    match a.write v.1 w with
    | .ok w1 => b.write v.2 w1
    | .error e => .error e
  read bs p :=
    match a.read bs p with
    | .error e => .error e
    | .ok (x, p1) =>
      match b.read bs p1 with
      | .error e => .error e
      | .ok (y, p2) => .ok ((x, y), p2)

/-- Field level `pad_after = n` for both directions:
/repo/ssbh_write_derive/src/lib.rs:353-358,422-526 writes `n` zeros; binrw seeks over `n` bytes. -/
def padAfter (n : Nat) (a : Codec α) : Codec α where
  size v := a.size v + n
  align := a.align
  write v w :=
    match a.write v w with
    | .ok w1 => .ok (w1.put (List.replicate n 0))
    | .error e => .error e
  read bs p :=
    match a.read bs p with
    | .error e => .error e
    | .ok (x, p1) => .ok (x, p1 + n)

/-- `#[ssbhwrite(pad_after = n)]` without a `#[br(pad_after)]`: the reader does not skip. -/
def padAfterWrite (n : Nat) (a : Codec α) : Codec α where
  size v := a.size v + n
  align := a.align
  write v w :=
    match a.write v w with
    | .ok w1 => .ok (w1.put (List.replicate n 0))
    | .error e => .error e
  read := a.read

/-- Names for the fields: a bijection between the nested pair and a Lean structure (the proof argument
is by structure eta). Has no counterpart in the code. -/
def iso (a : Codec α) (to : β → α) (from' : α → β)
    (_h : ∀ v, from' (to v) = v := by intro v; rfl) : Codec β where
  size v := a.size (to v)
  align := a.align
  write v w := a.write (to v) w
  read bs p :=
    match a.read bs p with
    | .error e => .error e
    | .ok (x, p1) => .ok (from' x, p1)

/-- Derived `SsbhWrite` of a struct: first move `data_ptr` past the struct, then write the fields.
/repo/ssbh_write_derive/src/lib.rs:297-351. `al` is `align_of::<Self>()` or the `alignment` attribute. -/
def struct (al : Nat) (a : Codec α) : Codec α where
  size := a.size
  align := al
  write v w := a.write v (w.bump (a.size v))
  read := a.read

/-- A fieldless enum with `#[br(repr(..))] #[ssbhwrite(repr(..))]` of `n` bytes. The derived writer
also moves the data pointer, /repo/ssbh_write_derive/src/lib.rs:297-351 with 83-91. -/
def reprEnum (n : Nat) (tags : List Nat) : Codec (ReprEnum tags) :=
  struct n (prim n ReprEnum.tag (ReprEnum.ofNat tags))

/-- `ssbh_write_modular_bitfield_impl!` for a bitfield of `n` bytes, kept as its raw bits:
/repo/ssbh_write/src/lib.rs:173-202; read with `from_bytes`. -/
def bitfield16 : Codec UInt16 := struct 2 u16
def bitfield32 : Codec UInt32 := struct 4 u32

/-! ## Sequences -/

/-- The elements of a slice, one after the other, /repo/ssbh_write/src/lib.rs:118-120. -/
def writeElems (a : Codec α) : List α → W → Except WErr W
  | [], w => .ok w
  | v :: vs, w =>
    match a.write v w with
    | .ok w1 => writeElems a vs w1
    | .error e => .error e

/-- `size_in_bytes` of a slice: /repo/ssbh_write/src/lib.rs:125-131 (length times the size of the first
element). -/
def sliceSize (a : Codec α) : List α → Nat
  | [] => 0
  | v :: vs => (v :: vs).length * a.size v

/-- `&[T]`: /repo/ssbh_write/src/lib.rs:105-137. -/
def writeSlice (a : Codec α) (vs : List α) (w : W) : Except WErr W :=
  writeElems a vs (w.bump (sliceSize a vs))

/-- /repo/ssbh_lib/src/arrays.rs:226-245; also binrw's `Vec<T>` with a count. -/
def readElems (a : Codec α) : Nat → Bytes → Nat → Except RErr (List α × Nat)
  | 0, _, p => .ok ([], p)
  | n + 1, b, p =>
    match a.read b p with
    | .error e => .error e
    | .ok (v, p1) =>
      match readElems a n b p1 with
      | .error e => .error e
      | .ok (vs, p2) => .ok (v :: vs, p2)

/-- `[T; N]` and `Vec<T>` whose length is known to the reader: /repo/ssbh_write/src/lib.rs:91-103,270-291. -/
def vecN (n : Nat) (a : Codec α) : Codec (List α) where
  size vs := sliceSize a vs
  align := a.align
  write := writeSlice a
  read := readElems a n

/-- `[T; N]`: /repo/ssbh_write/src/lib.rs:91-103; binrw reads `N` elements (the last case cannot happen). -/
def arrayN (n : Nat) (a : Codec α) : Codec (Vector α n) where
  size vs := sliceSize a vs.toList
  align := a.align
  write vs := writeSlice a vs.toList
  read b p :=
    match readElems a n b p with
    | .error e => .error e
    | .ok (vs, p') => if h : vs.length = n then .ok (⟨vs.toArray, by simpa using h⟩, p') else .error .eof

/-! ## Pointers -/

/-- /repo/ssbh_lib/src/lib.rs:593-600. The subtraction would panic (or wrap) for a data pointer before the
position, and the data pointer is a `u64`. -/
def writeRelativeOffset (w : W) : Except WErr W :=
  if w.dp < w.pos then .error .underflow
  else if w.dp < 2 ^ 64 then .ok (w.put (leBytes 8 (w.dp - w.pos)))
  else .error .overflow

/-- After writing a pointee: /repo/ssbh_lib/src/lib.rs:626-631 and 711-716. -/
def pointPast (al : Nat) (w : W) : W :=
  if w.pos > w.dp then w.setDp (roundUp w.pos al) else w

/-- /repo/ssbh_lib/src/lib.rs:602-642 with `write_t = T::ssbh_write`. -/
def writeRelPtrAligned (a : Codec α) : Option α → Nat → W → Except WErr W
  | some v, al, w =>
    let w1 := w.setDp (roundUp w.dp al)
    match writeRelativeOffset (w1.notePtr w1.pos al) with
    | .error e => .error e
    | .ok w2 =>
      let posAfterOffset := w2.pos
      match a.write v (w2.seek w2.dp) with
      | .error e => .error e
      | .ok w3 => .ok ((pointPast al w3).seek posAfterOffset)
  | none, _, w => putU64 0 w

/-- `RelPtr64<T>`: write /repo/ssbh_lib/src/lib.rs:734-754, read /repo/ssbh_lib/src/lib.rs:448-477. -/
def relPtr (a : Codec α) : Codec (Option α) where
  size _ := 8
  align := 8
  write v w := writeRelPtrAligned a v a.align (w.bump 8)
  read b p :=
    match readLe 8 b p with
    | .error e => .error e
    | .ok (off, savedPos) =>
      if off = 0 then .ok (none, savedPos)
      else
        match absoluteOffsetChecked p off with
        | .error e => .error e
        | .ok seekPos =>
          match a.read b seekPos with
          | .error e => .error e
          | .ok (v, _) => .ok (some v, savedPos)

/-- `Ptr<P, T>` with a pointer type of `n` bytes: write /repo/ssbh_lib/src/lib.rs:663-732, read
/repo/ssbh_lib/src/lib.rs:362-390. The second, identical bump of the Rust code has no effect and is
left out. -/
def absPtr (n : Nat) (a : Codec α) : Codec (Option α) where
  size _ := n
  align := n
  write v w :=
    let w := w.bump n
    match v with
    | some v =>
      let w1 := w.setDp (roundUp w.dp a.align)
      if w1.dp < 256 ^ n then
        let w2 := (w1.notePtr 0 a.align).put (leBytes n w1.dp)
        match a.write v (w2.seek w2.dp) with
        | .error e => .error e
        | .ok w3 => .ok ((pointPast a.align w3).seek w2.pos)
      else .error .ptrTooLarge
    | none => .ok (w.put (leBytes n 0))
  read b p :=
    match readLe n b p with
    | .error e => .error e
    | .ok (off, savedPos) =>
      if off = 0 then .ok (none, savedPos)
      else
        match a.read b off with
        | .error e => .error e
        | .ok (v, _) => .ok (some v, savedPos)

/-! ## Arrays -/

/-- /repo/ssbh_lib/src/arrays.rs:292-309. The data pointer is a `u64`. -/
def writeArrayHeader (count : Nat) (w : W) : Except WErr W :=
  let w1 := w.setDp (roundUp w.dp 8)
  match (if w1.dp ≥ 2 ^ 64 then .error .overflow
    else if count = 0 then putU64 0 w1
    else writeRelativeOffset (w1.notePtr w1.pos 8)) with
  | .error e => .error e
  | .ok w2 => putU64 count w2

/-- Header part of /repo/ssbh_lib/src/arrays.rs:270-290: start of the elements, count, and the position
after the header. -/
def readArrayHeader (b : Bytes) (p : Nat) : Except RErr (Nat × Nat × Nat) :=
  match readLe 8 b p with
  | .error e => .error e
  | .ok (off, p1) =>
    match readLe 8 b p1 with
    | .error e => .error e
    | .ok (count, savedPos) =>
      match absoluteOffsetChecked p off with
      | .error e => .error e
      | .ok seekPos => .ok (seekPos, count, savedPos)

/-- `SsbhArray<T>`: write /repo/ssbh_lib/src/arrays.rs:340-373, read /repo/ssbh_lib/src/arrays.rs:226-245,270-290. -/
def array (a : Codec α) : Codec (List α) where
  size _ := 16
  align := 8
  write vs w :=
    match writeArrayHeader vs.length (w.bump 16) with
    | .error e => .error e
    | .ok w1 =>
      match writeSlice a vs (w1.seek w1.dp) with
      | .error e => .error e
      | .ok w2 => .ok (w2.seek w1.pos)
  read b p :=
    match readArrayHeader b p with
    | .error e => .error e
    | .ok (seekPos, count, savedPos) =>
      match readElems a count b seekPos with
      | .error e => .error e
      | .ok (vs, _) => .ok (vs, savedPos)

/-- /repo/ssbh_lib/src/arrays.rs:247-268: `take(count).read_to_end` and a length check. -/
def readBuffer (count : Nat) (b : Bytes) (p : Nat) : Except RErr Bytes :=
  let elements := (b.drop p).take count
  if elements.length ≠ count then .error .shortBuffer else .ok elements

/-- `SsbhByteBuffer`: write /repo/ssbh_lib/src/arrays.rs:311-338, read /repo/ssbh_lib/src/arrays.rs:247-290. -/
def byteBuffer : Codec Bytes where
  size _ := 16
  align := 8
  write bs w :=
    match writeArrayHeader bs.length (w.bump 16) with
    | .error e => .error e
    | .ok w1 =>
      let w2 := (w1.seek w1.dp).put bs
      .ok ((w2.setDp (w2.dp + bs.length)).seek w1.pos)
  read b p :=
    match readArrayHeader b p with
    | .error e => .error e
    | .ok (seekPos, count, savedPos) =>
      match readBuffer count b seekPos with
      | .error e => .error e
      | .ok bs => .ok (bs, savedPos)

/-! ## Strings -/

/-- `CString<N>`: the private `Vec<u8>`, which has no zero byte, /repo/ssbh_lib/src/strings.rs:22-37. -/
structure CStr where
  bytes : Bytes
  noNull : (0 : UInt8) ∉ bytes
  deriving DecidableEq, Repr

theorem noNull_takeWhile : ∀ bs : Bytes, (0 : UInt8) ∉ bs.takeWhile (· ≠ 0)
  | [] => by simp
  | b :: bs => by
    have := noNull_takeWhile bs
    rw [List.takeWhile_cons]
    split
    · rename_i h
      have hb : b ≠ 0 := by simpa using h
      simp only [List.mem_cons, not_or]
      exact ⟨fun h => hb h.symm, this⟩
    · simp

/-- /repo/ssbh_lib/src/strings.rs:40-44 -/
def CStr.fromBytes (bs : Bytes) : CStr where
  bytes := bs.takeWhile (· ≠ 0)
  noNull := noNull_takeWhile bs

/-- The loop of /repo/ssbh_lib/src/strings.rs:58-76 on the remaining input; returns the bytes
before the first zero byte. -/
def scanCStr : Bytes → Except RErr Bytes
  | [] => .error .eof
  | b :: bs =>
    if b = 0 then .ok []
    else
      match scanCStr bs with
      | .error e => .error e
      | .ok s => .ok (b :: s)

theorem scanCStr_noNull : ∀ (bs s : Bytes), scanCStr bs = .ok s → (0 : UInt8) ∉ s
  | [], s, h => by simp [scanCStr] at h
  | b :: bs, s, h => by
    simp only [scanCStr] at h
    split at h
    · cases h; simp
    · rename_i hb
      split at h
      · cases h
      · rename_i s' hs
        cases h
        have := scanCStr_noNull bs s' hs
        simp only [List.mem_cons, not_or]
        exact ⟨fun h => hb h.symm, this⟩

/-- `CString<N>`: read /repo/ssbh_lib/src/strings.rs:58-76, write /repo/ssbh_lib/src/strings.rs:132-156.
The size leaves out the zero byte, as in the code. -/
def cstring (N : Nat) : Codec CStr where
  size s := s.bytes.length
  align := N
  write s w :=
    if s.bytes = [] then .ok (w.put (List.replicate N 0))
    else .ok ((w.put s.bytes).put [0])
  read b p :=
    match h : scanCStr (b.drop p) with
    | .error e => .error e
    | .ok s => .ok (⟨s, scanCStr_noNull _ _ h⟩, p + s.length + 1)

/-- `SsbhStringN<N>` is a newtype of `RelPtr64<CString<N>>` with derived implementations,
/repo/ssbh_lib/src/strings.rs:9-13. -/
def ssbhStringN (N : Nat) : Codec (Option CStr) := struct 8 (relPtr (cstring N))

/-- `SsbhString`, /repo/ssbh_lib/src/strings.rs:16 -/
abbrev SsbhString := Option CStr
def ssbhString : Codec SsbhString := ssbhStringN 4
/-- `SsbhString8`, /repo/ssbh_lib/src/strings.rs:19 -/
def ssbhString8 : Codec SsbhString := ssbhStringN 8

/-! ## Tagged unions -/

/-- Wrap the value just read into the variant of an enum. -/
def mapRead (f : α → β) : Except RErr (α × Nat) → Except RErr (β × Nat)
  | .error e => .error e
  | .ok (x, p) => .ok (f x, p)

/-- Payload types of a `SsbhEnum64<T>` (`ssbh_enum!`, /repo/ssbh_lib/src/enums.rs:149-175): a tag for every
value, a writer, and a reader which is given the tag. -/
structure Tagged (α : Type) where
  tag : α → Nat
  align : Nat
  size : α → Nat
  write : α → W → Except WErr W
  read : Nat → Bytes → Nat → Except RErr (α × Nat)

/-- The payload as seen by `RelPtr64<T>` when the tag is already known. -/
def Tagged.codec (t : Tagged α) (tag : Nat) : Codec α where
  size := t.size
  align := t.align
  write := t.write
  read := t.read tag

/-- `SsbhEnum64<T>`: read /repo/ssbh_lib/src/enums.rs:85-118, write /repo/ssbh_lib/src/enums.rs:120-146. The tag of a null
value is lost on reading and written as zero. -/
def enum64 (t : Tagged α) : Codec (Option α) where
  size _ := 16
  align := 8
  write v w :=
    match (relPtr (t.codec 0)).write v (w.bump 16) with
    | .error e => .error e
    | .ok w1 =>
      match v with
      | some v => putU64 (t.tag v) w1
      | none => putU64 0 w1
  read b p :=
    match readLe 8 b p with
    | .error e => .error e
    | .ok (off, p1) =>
      match readLe 8 b p1 with
      | .error e => .error e
      | .ok (dataType, savedPos) =>
        if off = 0 then .ok (none, savedPos)
        else
          match absoluteOffsetChecked p off with
          | .error e => .error e
          | .ok seekPos =>
            match t.read dataType b seekPos with
            | .error e => .error e
            | .ok (v, _) => .ok (some v, savedPos)

end Verif
