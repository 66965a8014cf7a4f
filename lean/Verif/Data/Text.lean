import Verif.Lib.Codecs
/-!
# Text

Conversions between Rust strings and the strings of the file formats, /repo/ssbh_lib/src/strings.rs. A Rust
`String` is a Lean `String` (both are valid UTF-8).
-/

namespace Verif

/-- `str::as_bytes` -/
def textBytes (s : String) : Bytes := s.toByteArray.data.toList

/-- `std::str::from_utf8(bytes).ok()` -/
def fromUtf8 (bytes : Bytes) : Option String := String.fromUTF8? ⟨bytes.toArray⟩

/-- `SsbhStringN::from(text)`: /repo/ssbh_lib/src/strings.rs:160-162,185-201 (and 116-130 for `CString`) -/
def ssbhText (s : String) : SsbhString := some (CStr.fromBytes (textBytes s))

/-- `CString::to_str`: /repo/ssbh_lib/src/strings.rs:46-50 -/
def CStr.toStr (c : CStr) : Option String := fromUtf8 c.bytes

/-- `SsbhStringN::to_str`: /repo/ssbh_lib/src/strings.rs:164-168 -/
def ssbhToStr : SsbhString → Option String
  | none => none
  | some c => c.toStr

/-- `SsbhStringN::to_string_lossy`: /repo/ssbh_lib/src/strings.rs:170-174 -/
def toStringLossy (s : SsbhString) : String := (ssbhToStr s).getD ""

end Verif
