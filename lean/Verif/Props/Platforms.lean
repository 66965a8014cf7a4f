import Verif.Derive.FormatsPort
import Verif.Derive.Platform
import Verif.Derive.FormatsSame
import Verif.Props.Files
import Verif.Props.Derive
/-!
# Saving on different platforms: C71 and C72

`Ty.file P …` is `write_ssbh_file` with the code that the macro derives from the Rust definitions of a format, compiled
for the platform `P`.
-/

namespace Verif.Props
open Verif Verif.Derive

/-- The `write` method of a format on the platform `P`, /repo/ssbh_lib/src/lib.rs:792-808. -/
def writeOn (P : Platform) [s : SsbhType α] [h : DerivesFile α t] (v : α) : Except WErr Bytes :=
  Ty.file P s.format.magic (s.format.version v) t (h.val v)

/-- `SsbhFile::write` on the platform `P`, /repo/ssbh_lib/src/lib.rs:756-772. -/
def Ssbh.writeOn (P : Platform) : Ssbh → Except WErr Bytes
  | .Hlpb v => Props.writeOn P v
  | .Matl v => Props.writeOn P v
  | .Modl v => Props.writeOn P v
  | .Mesh v => Props.writeOn P v
  | .Skel v => Props.writeOn P v
  | .Anim v => Props.writeOn P v
  | .Nlst v => Props.writeOn P v
  | .Nrpd v => Props.writeOn P v
  | .Nufx v => Props.writeOn P v
  | .Shdr v => Props.writeOn P v

/-- C71: the writers of the ten formats are the ones derived from the definitions of their types. -/
theorem C71_derived (v : Ssbh) : Ssbh.writeOn p64 v = Ssbh.write v := by
  cases v <;> exact (DerivesFile.bytes _).symm

/-- The formats whose definitions have no pointer to something else than a list or a text. -/
def Ssbh.portable : Ssbh → Bool
  | .Matl _ | .Modl _ | .Nrpd _ => false
  | _ => true

/-- C71: files of seven of the formats are the same on all platforms, whatever the sizes and alignments of numbers and
pointers in memory. -/
theorem C71_formats_partial (P : Platform) (v : Ssbh) (h : Ssbh.portable v = true) : Ssbh.writeOn P v = Ssbh.write v := by
  rw [← C71_derived]
  cases v with
  | Matl v => cases h
  | Modl v => cases h
  | Nrpd v => cases h
  | Hlpb v => exact file_alike (Variants.agreeAt_of _ rfl _)
  | Mesh v => exact file_alike (Variants.agreeAt_of _ rfl _)
  | Skel v => exact file_alike (Variants.agreeAt_of _ rfl _)
  | Anim v => exact file_alike (Variants.agreeAt_of _ rfl _)
  | Nlst v => exact file_alike (Variants.agreeAt_of _ rfl _)
  | Nufx v => exact file_alike (Variants.agreeAt_of _ rfl _)
  | Shdr v => exact file_alike (Variants.agreeAt_of _ rfl _)

/-- C71: all platforms with 64 bit numbers and pointers aligned to 8 bytes write the same files of all formats. -/
theorem C71_words_partial (P : Platform) (h : ∀ n, P.number n = p64.number n) (h' : P.word = p64.word) (v : Ssbh) :
    Ssbh.writeOn P v = Ssbh.write v := by
  have : P = p64 := by
    cases P
    cases h'
    cases funext h
    rfl
  rw [this, C71_derived]

/-- C71: materials of version 1.5 are the same in WebAssembly. -/
theorem C71_materials_partial (v : Matl.V15Data) : Ssbh.writeOn wasm32 (.Matl (.V15 v)) = Ssbh.write (.Matl (.V15 v)) := by
  rw [← C71_derived]
  exact file_alike (v := Matl.variantsVal (.V15 v)) (by
    show Fields.agree wasm32 p64 _ = true
    decide +kernel)

def differ (a b : Except WErr Bytes) : Bool :=
  match a, b with
  | .ok a, .ok b => a != b
  | _, _ => false

theorem differ_iff {a b : Except WErr Bytes} : differ a b = true → ∃ x y, a = .ok x ∧ b = .ok y ∧ x ≠ y := by
  cases a <;> cases b <;> simp [differ]

/-- A model with the name of a material file and one of an animation file. -/
def portedModl : Ssbh := .Modl (.V17 {
  model_name := none, skeleton_file_name := none, material_file_names := [str "abc"],
  animation_file_name := some (str "x"), mesh_file_name := none, entries := [] })

def portedParam (n : Fin 366) : Matl.ParamId := ⟨n, List.mem_range.mpr n.isLt⟩

/-- A material with two switches. -/
def portedMatl16 : Ssbh := .Matl (.V16 ⟨[⟨str "abc", [⟨portedParam 3, some (.Boolean 1)⟩, ⟨portedParam 4, some (.Boolean 1)⟩], none⟩]⟩)

def portedMatl15 : Ssbh := .Matl (.V15 ⟨[⟨str "abc", [⟨portedParam 3, some (.Boolean 1)⟩, ⟨portedParam 4, some (.Boolean 1)⟩], none⟩]⟩)

def portedNrpd : Ssbh := .Nrpd (.V16 {
  frame_buffers := [], state_containers := [], render_passes := [], unk_string_list1 := [],
  unk_string_list2 := [some (.UnkItem20 ⟨str "abc", none⟩), some (.UnkItem20 ⟨none, none⟩)],
  unk_list := [], unk_width1 := 0, unk_height1 := 0, unk3 := 0, unk4 := 0, unk5 := 0, unk6 := 0, unk7 := 0, unk8 := 0,
  unk9 := none, unk_width2 := 0, unk_height2 := 0, unk10 := 0 })

/-- C71: the same model is saved to other bytes in WebAssembly. -/
theorem C71_models : ∃ x y, Ssbh.write portedModl = .ok x ∧ Ssbh.writeOn wasm32 portedModl = .ok y ∧ x ≠ y :=
  differ_iff (by decide +kernel)

/-- C71: and materials of version 1.6, ... -/
theorem C71_materials16 : ∃ x y, Ssbh.write portedMatl16 = .ok x ∧ Ssbh.writeOn wasm32 portedMatl16 = .ok y ∧ x ≠ y :=
  differ_iff (by decide +kernel)

/-- C71: ... render passes, ... -/
theorem C71_passes : ∃ x y, Ssbh.write portedNrpd = .ok x ∧ Ssbh.writeOn wasm32 portedNrpd = .ok y ∧ x ≠ y :=
  differ_iff (by decide +kernel)

/-- C71: ... and on 32 bit x86 also materials of version 1.5. -/
theorem C71_materials15 : ∃ x y, Ssbh.write portedMatl15 = .ok x ∧ Ssbh.writeOn i686 portedMatl15 = .ok y ∧ x ≠ y :=
  differ_iff (by decide +kernel)

/-- The formats which are the same on all platforms. -/
example : Ssbh.portable (.Skel (.V10 ⟨[⟨str "a", 0, 0, ⟨1, ⟨0, by decide⟩⟩⟩], [], [], [], []⟩)) = true := rfl

/-! ## Reading: C72 -/

theorem portable_format {P : Platform} [s : SsbhType α] [l : LawSsbh α] [DerivesFile α t] (hl : LawFormat (fileOn P α))
    (ha : ∀ v, s.format.alignAfter v = 1) (v : α) :
    (∀ b, writeOn P v = .ok b → Ssbh.read b = .ok (s.inj v)) ∧ ∀ e, writeOn P v = .error e → e = .overflow := by
  have hb : writeOn P v = (fileOn P α).toBytes v := (fileOn_bytes (ha v)).symm
  rw [hb]
  constructor
  · intro b h
    have h1 := hl.readBack h []
    rw [List.append_nil] at h1
    have h2 : readSsbhMagic b = .ok s.format.magic := h1.1
    have h3 : s.format.readVersioned b 20 = .ok v := h1.2
    rw [Ssbh.read_eq, h2]
    show Ssbh.readData s.format.magic b = _
    rw [l.readData, h3]
    rfl
  · intro e h
    simp only [Format.toBytes, Format.writeFile_eq] at h
    cases hw : (fileOn P α).writeBody v with
    | error e' =>
      rw [hw] at h
      cases h
      exact hl.total _ _ _ hw
    | ok w => rw [hw] at h; cases h

theorem platform_file (P : Platform) (hP : P.Ok) (v : Ssbh) :
    (∀ b, Ssbh.writeOn P v = .ok b → Ssbh.read b = .ok v) ∧ ∀ e, Ssbh.writeOn P v = .error e → e = .overflow := by
  by_cases hp : Ssbh.portable v = true
  · rw [C71_formats_partial P v hp]
    exact ⟨fun b => C01_ssbh_round_trip v b, fun e => C01_write_total v e⟩
  · cases v with
    | Matl v => exact portable_format (Matl.fileOn_law hP) (by intro v; cases v <;> rfl) v
    | Modl v => exact portable_format (Modl.fileOn_law hP) (by intro v; cases v <;> rfl) v
    | Nrpd v => exact portable_format (Nrpd.fileOn_law hP) (by intro v; cases v <;> rfl) v
    | _ => exact absurd rfl hp

/-- C72: what is saved on any platform is read back to the same data. (The reader does not use alignments.) -/
theorem C72_read_back (P : Platform) (hP : P.Ok) (v : Ssbh) (b : Bytes) (h : Ssbh.writeOn P v = .ok b) :
    Ssbh.read b = .ok v := (platform_file P hP v).1 b h

/-- C72: saving fails on any platform only if positions do not fit into 64 bits. -/
theorem C72_success (P : Platform) (hP : P.Ok) (v : Ssbh) (e : WErr) (h : Ssbh.writeOn P v = .error e) : e = .overflow :=
  (platform_file P hP v).2 e h

/-- C72: saving what was read from a file of another platform `P` on `Q` gives what `Q` saves. -/
theorem C72_resave (P Q : Platform) (hP : P.Ok) (v v' : Ssbh) (b : Bytes) (h : Ssbh.writeOn P v = .ok b)
    (hr : Ssbh.read b = .ok v') : Ssbh.writeOn Q v' = Ssbh.writeOn Q v := by
  rw [C72_read_back P hP v b h] at hr
  cases hr
  rfl

/-- A file which is not the same on all platforms. -/
example : ∃ b, Ssbh.writeOn wasm32 portedModl = .ok b ∧ Ssbh.write portedModl ≠ .ok b ∧ Ssbh.read b = .ok portedModl := by
  obtain ⟨x, y, h1, h2, h3⟩ := C71_models
  refine ⟨y, h2, fun h => ?_, C72_read_back wasm32 wasm32_ok _ _ h2⟩
  rw [h1] at h
  exact h3 (Except.ok.inj h)

end Verif.Props
