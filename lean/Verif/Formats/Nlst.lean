import Verif.Lib.File
import Verif.Formats.Vectors
/-!
# Nlst

Types of /repo/ssbh_lib/src/formats/nlst.rs.
Written by tools/gen_formats.py from the Rust definitions.
-/

namespace Verif
namespace Nlst

/-- The fields of `Nlst::V10`, /repo/ssbh_lib/src/formats/nlst.rs:14-17, with the writer of the enum for this variant. -/
structure V10Data where
  file_names : List SsbhString
  deriving DecidableEq, Repr

def V10Data.codec : Codec V10Data :=
  struct 8 (iso ((array ssbhString))
    (fun v => (v.file_names))
    (fun file_names => ⟨file_names⟩))

instance : LawC V10Data.codec := by
  unfold V10Data.codec; infer_instance

end Nlst

/-- /repo/ssbh_lib/src/formats/nlst.rs:14-17 -/
inductive Nlst where
  | V10 (v : Nlst.V10Data)
  deriving DecidableEq, Repr

/-- /repo/ssbh_lib/src/formats/nlst.rs:14-17, and the magic from /repo/ssbh_lib/src/lib.rs:300-309. -/
def Nlst.format : Format Nlst where
  magic := [0x54, 0x53, 0x4c, 0x4e] -- TSLN
  version
    | .V10 _ => (1, 0)
  size
    | .V10 v => Nlst.V10Data.codec.size v
  write v w :=
    match v with
    | .V10 v => Nlst.V10Data.codec.write v w
  read major minor b p :=
    if major = 1 ∧ minor = 0 then mapRead .V10 (Nlst.V10Data.codec.read b p)
    else .error .badTag
  alignAfter
    | .V10 _ => 1

instance : LawFormat Nlst.format where
  magic := rfl
  lawful := by
    intro v
    cases v with
    | V10 v => exact format_variant_law (al := 8) (c := Nlst.V10Data.codec) (f := Nlst.V10) rfl (fun _ => rfl) (fun _ _ => rfl)
  total := by
    intro v w e h
    cases v with
    | V10 v => exact format_variant_total (c := Nlst.V10Data.codec) (f := Nlst.V10) (fun _ => rfl) h
  align := by intro v; cases v <;> simp [Nlst.format]
  version := by
    intro major minor b p v p' h
    simp only [Nlst.format] at h
    split at h
    · rename_i hv; obtain ⟨x, rfl⟩ := mapRead_ok h; obtain ⟨rfl, rfl⟩ := hv; rfl
    cases h

end Verif
