import Verif.Lib.Codecs
/-!
# Descriptions of binary layouts

What it means that a value is stored at a position of a file. A description says for each field at which distance from the
start it is; it does not refer to readers or writers. Used for C65.
-/

namespace Verif

/-- The number of bytes which a value takes where it stands (without what it points to), and when a value is stored at a
position. -/
structure Layout (α : Type) where
  size : Nat
  stored : Bytes → Nat → α → Prop

namespace Layout

/-- The bytes `bs` are at `p`. -/
def BytesAt (b : Bytes) (p : Nat) (bs : Bytes) : Prop := ∀ i (h : i < bs.length), b[p + i]? = some bs[i]

/-- The number `x` is at `p`, in `n` bytes from the least to the most significant one. -/
def NumAt (n : Nat) (b : Bytes) (p : Nat) (x : Nat) : Prop :=
  x < 256 ^ n ∧ ∀ i < n, b[p + i]? = some (UInt8.ofNat (x / 256 ^ i))

def u8 : Layout UInt8 := ⟨1, fun b p v => NumAt 1 b p v.toNat⟩
def u16 : Layout UInt16 := ⟨2, fun b p v => NumAt 2 b p v.toNat⟩
def u32 : Layout UInt32 := ⟨4, fun b p v => NumAt 4 b p v.toNat⟩
def u64 : Layout UInt64 := ⟨8, fun b p v => NumAt 8 b p v.toNat⟩

/-- Two's complement: a negative number is stored as the number which is larger by `256 ^ n`. -/
def i16 : Layout Int16 := ⟨2, fun b p v => NumAt 2 b p (v.toInt % 65536).toNat⟩
def i32 : Layout Int32 := ⟨4, fun b p v => NumAt 4 b p (v.toInt % 4294967296).toNat⟩

/-- The bits of a float. -/
def f32 : Layout F32 := ⟨4, fun b p v => NumAt 4 b p v.toNat⟩

/-- An enum is stored as the number of its variant. -/
def enum (n : Nat) {tags : List Nat} : Layout (ReprEnum tags) := ⟨n, fun b p v => NumAt n b p v.tag⟩

/-- Nothing. -/
def unit : Layout Unit := ⟨0, fun _ _ _ => True⟩

/-- A fixed number of elements, one after the other. -/
def vector (n : Nat) (L : Layout α) : Layout (Vector α n) :=
  ⟨n * L.size, fun b p v => ∀ i (h : i < n), L.stored b (p + i * L.size) v[i]⟩

/-- A text ends with a zero byte. -/
def TextAt (b : Bytes) (p : Nat) (s : CStr) : Prop := BytesAt b p (s.bytes ++ [0])

/-- A pointer has the distance from the pointer itself to its target; zero is null. -/
def PointerAt (stored : Bytes → Nat → α → Prop) (b : Bytes) (p : Nat) : Option α → Prop
  | none => NumAt 8 b p 0
  | some v => ∃ distance, distance ≠ 0 ∧ NumAt 8 b p distance ∧ p + distance < 2 ^ 64 ∧ stored b (p + distance) v

def pointer (L : Layout α) : Layout (Option α) := ⟨8, PointerAt L.stored⟩

/-- A pointer to a text. -/
def text : Layout SsbhString := ⟨8, PointerAt TextAt⟩

/-- Distance from the field itself to the first element, and the number of elements. -/
def list (L : Layout α) : Layout (List α) :=
  ⟨16, fun b p v => ∃ distance, NumAt 8 b p distance ∧ NumAt 8 b (p + 8) v.length ∧ p + distance < 2 ^ 64 ∧
    ∀ i (h : i < v.length), L.stored b (p + distance + i * L.size) v[i]⟩

/-- The same for raw bytes. -/
def buffer : Layout Bytes :=
  ⟨16, fun b p v => ∃ distance, NumAt 8 b p distance ∧ NumAt 8 b (p + 8) v.length ∧ p + distance < 2 ^ 64 ∧
    BytesAt b (p + distance) v⟩

/-- A pointer to data and then the number of its type. The number does not matter for a null pointer. -/
def tagged (tag : α → Nat) (data : Bytes → Nat → α → Prop) : Layout (Option α) :=
  ⟨16, fun b p v =>
    match v with
    | none => NumAt 8 b p 0 ∧ ∃ t, NumAt 8 b (p + 8) t
    | some v => PointerAt data b p (some v) ∧ NumAt 8 b (p + 8) (tag v)⟩

/-- A pointer which has the position in the file; zero is null. -/
def absolute (stored : Bytes → Nat → α → Prop) : Layout (Option α) :=
  ⟨8, fun b p v =>
    match v with
    | none => NumAt 8 b p 0
    | some v => ∃ position, position ≠ 0 ∧ NumAt 8 b p position ∧ stored b position v⟩

/-- A file: its first four bytes, the name of its format, two version numbers, and the fields. Bytes 4 to 15 do not
matter. -/
def FileAt (magic : Bytes) (major minor : Nat) (fields : Bytes → Nat → Prop) (b : Bytes) : Prop :=
  BytesAt b 0 [0x48, 0x42, 0x53, 0x53] ∧ BytesAt b 16 magic ∧ NumAt 2 b 20 major ∧ NumAt 2 b 22 minor ∧ fields b 24

end Layout
end Verif
