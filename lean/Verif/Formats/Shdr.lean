import Verif.Lib.File
import Verif.Formats.Vectors
/-!
# Shdr

Types of /repo/ssbh_lib/src/formats/shdr.rs.
Written by tools/gen_formats.py from the Rust definitions.
-/

namespace Verif
namespace Shdr

/-- /repo/ssbh_lib/src/formats/shdr.rs:47-52 -/
abbrev ShaderStage := ReprEnum [0, 3, 4, 5]
def ShaderStage.Vertex : ShaderStage := ⟨0, by decide⟩
def ShaderStage.Geometry : ShaderStage := ⟨3, by decide⟩
def ShaderStage.Fragment : ShaderStage := ⟨4, by decide⟩
def ShaderStage.Compute : ShaderStage := ⟨5, by decide⟩
def ShaderStage.codec : Codec ShaderStage := reprEnum 4 [0, 3, 4, 5]
instance : LawC ShaderStage.codec := reprEnum_law (by decide) (by decide)

/-- /repo/ssbh_lib/src/formats/shdr.rs:30-39 -/
structure Shader where
  name : SsbhString
  shader_stage : Shdr.ShaderStage
  unk3 : UInt32
  shader_binary : Bytes
  binary_size : UInt64
  deriving DecidableEq, Repr

def Shader.codec : Codec Shader :=
  struct 8 (padAfter 16 (iso (pair ssbhString (pair Shdr.ShaderStage.codec (pair u32 (pair byteBuffer u64))))
    (fun v => (v.name, v.shader_stage, v.unk3, v.shader_binary, v.binary_size))
    (fun (name, shader_stage, unk3, shader_binary, binary_size) => ⟨name, shader_stage, unk3, shader_binary, binary_size⟩)))

instance : LawC Shader.codec := by
  unfold Shader.codec; infer_instance

/-- The fields of `Shdr::V12`, /repo/ssbh_lib/src/formats/shdr.rs:13-16, with the writer of the enum for this variant. -/
structure V12Data where
  shaders : List Shdr.Shader
  deriving DecidableEq, Repr

def V12Data.codec : Codec V12Data :=
  struct 8 (iso ((array Shdr.Shader.codec))
    (fun v => (v.shaders))
    (fun shaders => ⟨shaders⟩))

instance : LawC V12Data.codec := by
  unfold V12Data.codec; infer_instance

end Shdr

/-- /repo/ssbh_lib/src/formats/shdr.rs:13-16 -/
inductive Shdr where
  | V12 (v : Shdr.V12Data)
  deriving DecidableEq, Repr

/-- /repo/ssbh_lib/src/formats/shdr.rs:13-16, and the magic from /repo/ssbh_lib/src/lib.rs:300-309. -/
def Shdr.format : Format Shdr where
  magic := [0x52, 0x44, 0x48, 0x53] -- RDHS
  version
    | .V12 _ => (1, 2)
  size
    | .V12 v => Shdr.V12Data.codec.size v
  write v w :=
    match v with
    | .V12 v => Shdr.V12Data.codec.write v w
  read major minor b p :=
    if major = 1 ∧ minor = 2 then mapRead .V12 (Shdr.V12Data.codec.read b p)
    else .error .badTag
  alignAfter
    | .V12 _ => 1

instance : LawFormat Shdr.format where
  magic := rfl
  lawful := by
    intro v
    cases v with
    | V12 v => exact format_variant_law (al := 8) (c := Shdr.V12Data.codec) (f := Shdr.V12) rfl (fun _ => rfl) (fun _ _ => rfl)
  total := by
    intro v w e h
    cases v with
    | V12 v => exact format_variant_total (c := Shdr.V12Data.codec) (f := Shdr.V12) (fun _ => rfl) h
  align := by intro v; cases v <;> simp [Shdr.format]
  version := by
    intro major minor b p v p' h
    simp only [Shdr.format] at h
    split at h
    · rename_i hv; obtain ⟨x, rfl⟩ := mapRead_ok h; obtain ⟨rfl, rfl⟩ := hv; rfl
    cases h

end Verif
