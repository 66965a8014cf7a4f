/-!
# Byte level model: cursor, writer state, codecs

Models the parts of `std::io::Cursor<Vec<u8>>`, `ssbh_write::SsbhWrite` and `binrw::BinRead` which
`ssbh_lib` relies on.
-/

namespace Verif

abbrev Bytes := List UInt8

/-- Failures of a writer.
* `overflow`: an offset or a length does not fit in the 64 bits it is stored in. The Rust code
  computes these in `u64` and would panic (debug) or wrap (release); an output of at least 2^64
  bytes is needed to get there.
* `underflow`: the data pointer is before the pointer field, see `writeRelativeOffset`.
* `ptrTooLarge`: `P::try_from(*data_ptr)` failed, /repo/ssbh_lib/src/lib.rs:693-702.
* `invalid`: a format specific `io::Error`, /repo/ssbh_lib/src/formats/meshex.rs. -/
inductive WErr where
  | overflow
  | underflow
  | ptrTooLarge
  | invalid
  deriving DecidableEq, Repr

/-- Failures of a reader (binrw::Error and the error types of `ssbh_lib`).
* `eof`: not enough bytes (`Error::Io` with `UnexpectedEof`).
* `overflow`: `absolute_offset_checked`, /repo/ssbh_lib/src/lib.rs:314-328.
* `shortBuffer`: /repo/ssbh_lib/src/arrays.rs:258-264.
* `badTag`: no enum variant matches (tag, magic or version).
* `badMagic`: a struct level magic does not match.
* `wrongType`: `ReadSsbhError::InvalidSsbhType`, /repo/ssbh_lib/src/lib.rs:220-260. -/
inductive RErr where
  | eof
  | overflow
  | shortBuffer
  | badTag
  | badMagic
  | wrongType
  | assertFail
  deriving DecidableEq, Repr

/-! ## Little endian integers -/

/-- `to_le_bytes` of an integer of `n` bytes, /repo/ssbh_write/src/lib.rs:204-229. -/
def leBytes : Nat → Nat → Bytes
  | 0, _ => []
  | n + 1, x => UInt8.ofNat x :: leBytes n (x / 256)

/-- `from_le_bytes`: binrw's little endian integer readers. -/
def fromLe : Bytes → Nat
  | [] => 0
  | b :: bs => b.toNat + 256 * fromLe bs

/-! ## The output cursor -/

/-- One `write_all(bs)` on a `Cursor<Vec<u8>>` standing at `pos`: overwrite, extend, and fill a gap
with zeros. (A write of zero bytes leaves the buffer alone.) -/
def putAt (buf : Bytes) (pos : Nat) (bs : Bytes) : Bytes :=
  if bs = [] then buf
  else (buf ++ List.replicate (pos - buf.length) 0).take pos ++ bs ++ buf.drop (pos + bs.length)

/-- Trace of a writer. `data` is a `write_all` of `bytes` at `pos`. The other two are ghost events:
`ptr pos base target align` tells that the pointer stored at `pos` has the absolute target `target`,
that the stored number is `target - base`, and that the target must be a multiple of `align`.
`obj pos len` tells that a value occupying `len` bytes inline is written at `pos` (the place where
the Rust code moves `data_ptr` past the value). -/
inductive Ev where
  | data (pos : Nat) (bytes : Bytes)
  | ptr (pos base target align : Nat)
  | obj (pos len : Nat)
  deriving DecidableEq, Repr

/-- Content of the cursor after a trace (newest event first). -/
def render : List Ev → Bytes
  | [] => []
  | .data p bs :: l => putAt (render l) p bs
  | .ptr .. :: l => render l
  | .obj .. :: l => render l

/-- Writer state: trace so far (newest first), stream position and `data_ptr`. -/
structure W where
  log : List Ev
  pos : Nat
  dp : Nat
  deriving DecidableEq, Repr

namespace W

/-- Content of the underlying `Vec<u8>`. -/
def buf (w : W) : Bytes := render w.log

/-- `writer.write_all(bs)` -/
def put (bs : Bytes) (w : W) : W :=
  { w with log := .data w.pos bs :: w.log, pos := w.pos + bs.length }

/-- `writer.seek(SeekFrom::Start(p))` -/
def seek (p : Nat) (w : W) : W := { w with pos := p }

/-- `if *data_ptr < current_pos + size { *data_ptr = current_pos + size }`,
e.g. /repo/ssbh_write_derive/src/lib.rs:327-331, /repo/ssbh_write/src/lib.rs:112-116,
/repo/ssbh_lib/src/arrays.rs:347-350. -/
def bump (n : Nat) (w : W) : W :=
  { w with
    log := .obj w.pos n :: w.log
    dp := if w.dp < w.pos + n then w.pos + n else w.dp }

/-- Ghost event for a stored pointer. -/
def notePtr (base align : Nat) (w : W) : W :=
  { w with log := .ptr w.pos base w.dp align :: w.log }

def setDp (d : Nat) (w : W) : W := { w with dp := d }

/-- Empty writer of `SsbhWrite::write`, /repo/ssbh_write/src/lib.rs:51-57 (`data_ptr = 0`). -/
def init : W := ⟨[], 0, 0⟩

end W

/-- /repo/ssbh_lib/src/lib.rs:588-591 -/
def roundUp (value n : Nat) : Nat := ((value + n - 1) / n) * n

/-- Store a 64 bit number (offset or count), see `WErr.overflow`. -/
def putU64 (x : Nat) (w : W) : Except WErr W :=
  if x < 2 ^ 64 then .ok (w.put (leBytes 8 x)) else .error .overflow

/-! ## The input cursor -/

/-- `read_exact` of `n` bytes at `pos`. -/
def readBytes (n : Nat) (b : Bytes) (pos : Nat) : Except RErr (Bytes × Nat) :=
  if n ≤ b.length - pos then .ok ((b.drop pos).take n, pos + n) else .error .eof

/-- A little endian integer of `n` bytes. -/
def readLe (n : Nat) (b : Bytes) (pos : Nat) : Except RErr (Nat × Nat) :=
  match readBytes n b pos with
  | .ok (bs, p) => .ok (fromLe bs, p)
  | .error e => .error e

/-- /repo/ssbh_lib/src/lib.rs:314-328 -/
def absoluteOffsetChecked (position relativeOffset : Nat) : Except RErr Nat :=
  if position + relativeOffset < 2 ^ 64 then .ok (position + relativeOffset) else .error .overflow

/-! ## Codecs -/

/-- The pair of trait implementations `SsbhWrite` and `BinRead` of a Rust type:
`size` is `size_in_bytes`, `align` is `alignment_in_bytes`, `write` is `ssbh_write` and
`read` is `read_options` (little endian). -/
structure Codec (α : Type) where
  size : α → Nat
  align : Nat
  write : α → W → Except WErr W
  read : Bytes → Nat → Except RErr (α × Nat)

end Verif
