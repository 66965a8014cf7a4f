import Verif.Lib.Codecs
/-!
# Readers

Readers of types that are only read, in the style of `BinRead`: a function from all bytes and a position to a value and
the next position.
-/

namespace Verif

/-- A reader over all bytes with a position. -/
def Rd (α : Type) := Bytes → Nat → Except RErr (α × Nat)

namespace Rd

instance : Monad Rd where
  pure a := fun _ p => .ok (a, p)
  bind m f := fun b p =>
    match m b p with
    | .error e => .error e
    | .ok (a, q) => f a b q

/-- `u32::read_options` -/
def u32 : Rd UInt32 := Verif.u32.read

/-- `i32::read_options` -/
def i32 : Rd Int32 := Verif.i32.read

/-- `pad_after = n` -/
def skip (n : Nat) : Rd Unit := fun _ p => .ok ((), p + n)

/-- `seek_before = SeekFrom::Start(n)` -/
def seek (n : Nat) : Rd Unit := fun _ _ => .ok ((), n)

/-- `read_exact` -/
def bytes (n : Nat) : Rd Bytes := readBytes n

/-- `Vec::read_options` -/
def vec (m : Rd α) : Nat → Rd (List α)
  | 0 => pure []
  | n + 1 => do
    let a ← m
    let rest ← vec m n
    return a :: rest

/-- Run a reader at another position and come back. -/
def at_ (n : Nat) (m : Rd α) : Rd α := fun b p =>
  match m b n with
  | .error e => .error e
  | .ok (a, _) => .ok (a, p)

end Rd

end Verif
