import Verif.Image.AdjLaws
import Verif.Image.MeshExLaws
import Verif.Image.FormatLaws
import Verif.Props.PlainFiles
/-!
# The bytes of written files: C69

`Ssbh.image s` describes the file for `s` (`Verif.Image.Formats`), and `Image.File.bytes` are its bytes (`Verif.Image.Spec`).
Neither uses the writer.
-/

namespace Verif.Props
open Verif

/-- C69: the positions for targets are the first ones with the alignment. -/
theorem C69_next (a m : Nat) (ha : 0 < a) :
    m ≤ Image.next a m ∧ a ∣ Image.next a m ∧ ∀ n, m ≤ n → a ∣ n → Image.next a m ≤ n := by
  have hlt := Nat.mod_lt m ha
  have hd : m = a * (m / a) + m % a := (Nat.div_add_mod m a).symm
  unfold Image.next
  by_cases h0 : m % a = 0
  · rw [h0, Nat.sub_zero, Nat.mod_self]
    exact ⟨Nat.le_refl _, Nat.dvd_of_mod_eq_zero h0, fun n hn _ => hn⟩
  · rw [Nat.mod_eq_of_lt (by omega)]
    have he : m + (a - m % a) = a * (m / a + 1) := by rw [Nat.mul_add]; omega
    rw [he]
    refine ⟨by omega, Nat.dvd_mul_right _ _, ?_⟩
    rintro n hn ⟨k, rfl⟩
    apply Nat.mul_le_mul_left
    by_cases hk : m / a + 1 ≤ k
    · exact hk
    · have : a * k ≤ a * (m / a) := Nat.mul_le_mul_left _ (by omega)
      omega

example : Image.next 8 17 = 24 ∧ Image.next 8 24 = 24 := by decide

/-- C69 for `T::write` of each of the ten types: what is written is the image, and writing fails only if the positions in it
do not fit into 64 bits. -/
theorem C69_format {α : Type} [t : SsbhType α] [l : LawSsbh α] {f : α → Image.File} [EmitFile α f] (v : α) :
    (∀ b, writeAs v = .ok b → b = (f v).bytes) ∧ ((f v).stop < 2 ^ 64 → writeAs v = .ok (f v).bytes) := by
  have h := @EmitFile.bytes α t l.law f _ v
  constructor
  · intro b hb
    rw [show t.format.toBytes v = .ok b from hb] at h
    exact h
  · intro hs
    cases hb : t.format.toBytes v with
    | error e => rw [hb] at h; exact absurd h (by show ¬ 2 ^ 64 ≤ _; omega)
    | ok b => rw [hb] at h; exact hb.trans (congrArg _ h)

theorem image_cases (s : Ssbh) :
    (∀ b, s.write = .ok b → b = s.image.bytes) ∧ (s.image.stop < 2 ^ 64 → s.write = .ok s.image.bytes) := by
  cases s with
  | Modl v => exact C69_format v
  | Skel v => exact C69_format v
  | Nufx v => exact C69_format v
  | Shdr v => exact C69_format v
  | Matl v => exact C69_format v
  | Anim v => exact C69_format v
  | Hlpb v => exact C69_format v
  | Mesh v => exact C69_format v
  | Nrpd v => exact C69_format v
  | Nlst v => exact C69_format v

/-- C69 for the container: every byte of a written file. -/
theorem C69_image (s : Ssbh) (b : Bytes) (h : s.write = .ok b) : b = s.image.bytes := (image_cases s).1 b h

/-- C69: writing succeeds if the positions fit. -/
theorem C69_success (s : Ssbh) (h : s.image.stop < 2 ^ 64) : s.write = .ok s.image.bytes := (image_cases s).2 h

/-- C69: saving what was opened gives the same bytes exactly for the files which are laid out like this. -/
theorem C69_identical (b : Bytes) (s : Ssbh) (_ : Ssbh.read b = .ok s) (h : s.image.stop < 2 ^ 64) :
    s.write = .ok b ↔ b = s.image.bytes :=
  ⟨C69_image s b, fun e => by rw [e]; exact C69_success s h⟩

/-- The positions fit for `exModl`, so its image is written and read back. -/
example : exModl.image.stop < 2 ^ 64 ∧ Ssbh.read exModl.image.bytes = .ok exModl := by
  have h : exModl.image.stop < 2 ^ 64 := by decide +kernel
  exact ⟨h, C01_ssbh_round_trip _ _ (C69_success _ h)⟩

/-- A material without attributes. -/
def exNoAttributes : Ssbh := .Matl (.V15 ⟨[⟨str "a", [], str "b"⟩]⟩)

example : exNoAttributes.image.bytes =
    ascii "HBSS" ++ [64, 0, 0, 0, 0, 0, 0, 0, 0, 0, 0, 0] ++ ascii "LTAM" ++ [1, 0, 5, 0] ++
    [16, 0, 0, 0, 0, 0, 0, 0, 1, 0, 0, 0, 0, 0, 0, 0] ++
    [32, 0, 0, 0, 0, 0, 0, 0] ++ List.replicate 16 0 ++ [16, 0, 0, 0, 0, 0, 0, 0] ++
    ascii "a" ++ [0, 0, 0, 0, 0, 0, 0] ++ ascii "b" ++ [0] := by decide +kernel

/-- The same material with the second text 4 bytes earlier. -/
def exCloser : Bytes :=
    ascii "HBSS" ++ [64, 0, 0, 0, 0, 0, 0, 0, 0, 0, 0, 0] ++ ascii "LTAM" ++ [1, 0, 5, 0] ++
    [16, 0, 0, 0, 0, 0, 0, 0, 1, 0, 0, 0, 0, 0, 0, 0] ++
    [32, 0, 0, 0, 0, 0, 0, 0] ++ List.replicate 16 0 ++ [12, 0, 0, 0, 0, 0, 0, 0] ++
    ascii "a" ++ [0, 0, 0] ++ ascii "b" ++ [0]

/-- C69: the targets are not always as early as the alignment allows (the third rule of ssbh_offsets.md): after an empty list
the next target is moved to a multiple of 8, even if it is a text, for which a multiple of 4 is enough. The file `exCloser`
holds the same contents, its texts are at multiples of 4, it is shorter than the file that is written, and it is not rewritten
identically. -/
theorem C69_rule3_false : ∃ s b, s.write = .ok b ∧ ∃ b' : Bytes, Ssbh.read b' = .ok s ∧ b'.length < b.length := by
  have hs : exNoAttributes.image.stop < 2 ^ 64 := by decide +kernel
  refine ⟨exNoAttributes, _, C69_success _ hs, exCloser, ?_, by decide +kernel⟩
  have h : (match Ssbh.read exCloser with
      | .ok s => decide (s.image.stop < 2 ^ 64) && (s.image.bytes == exNoAttributes.image.bytes)
      | .error _ => false) = true := by decide +kernel
  cases hr : Ssbh.read exCloser with
  | error e => rw [hr] at h; cases h
  | ok s =>
    rw [hr] at h
    simp only [Bool.and_eq_true, decide_eq_true_eq, beq_iff_eq] at h
    have h1 := C01_ssbh_round_trip _ _ (C69_success s h.1)
    rw [h.2, C01_ssbh_round_trip _ _ (C69_success _ hs)] at h1
    exact h1.symm

/-- C69 for `MeshEx::write`. -/
theorem C69_meshex (v : MeshEx) (b : Bytes) (h : v.write = .ok b) : b = v.image := by
  by_cases hc : MeshEx.len32 v.entries = MeshEx.len32 v.entry_flags
  · have h1 := MeshEx.write_image v hc
    rw [h] at h1
    exact h1
  · simp only [MeshEx.write, MeshEx.ssbhWrite, if_pos hc] at h
    cases h

/-- C69: writing a MeshEx with as many flags as entries succeeds if the positions fit. -/
theorem C69_meshex_success (v : MeshEx) (h1 : countOf v.entries < 2 ^ 32) (h2 : countOf v.entry_flags = countOf v.entries)
    (h3 : Image.next 16 v.stop < 2 ^ 64) : v.write = .ok v.image := by
  have h := MeshEx.write_image v (by
    apply UInt32.toNat_inj.mp
    rw [len32_toNat _ h1, len32_toNat _ (by omega), h2])
  cases hw : v.write with
  | error e => rw [hw] at h; exact absurd h (by show ¬ 2 ^ 64 ≤ _; omega)
  | ok b => rw [hw] at h; rw [h]

example : exMeshEx.write = .ok exMeshEx.image :=
  C69_meshex_success _ (by decide) (by decide) (by decide +kernel)

/-- C69 for `Adj::write`, which never fails. -/
theorem C69_adj (v : Adj) : v.write = .ok v.image := by
  have h := C17_adj_written v
  rw [h, Adj.write_image v _ h]

example : (⟨[⟨1, 0⟩], [1, -2]⟩ : Adj).image = [1, 0, 0, 0, 1, 0, 0, 0, 0, 0, 0, 0, 1, 0, 254, 255] := by decide

end Verif.Props
