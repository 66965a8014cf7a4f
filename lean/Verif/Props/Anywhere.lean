import Verif.Image.NiceFormats
import Verif.Props.Room
/-!
# When writing succeeds
-/

namespace Verif.Props
open Verif Image

/-- What is needed of a file. -/
structure NiceFile (f : Image.File) : Prop where
  magic : f.magic.length = 4
  align : 0 < f.align
  fields : Nice f.fields

theorem ssbh_nice (s : Ssbh) : NiceFile s.image := by
  cases s with
  | Modl v => cases v; exact ⟨rfl, Nat.succ_pos _, inferInstanceAs (Nice (Modl.V17Data.image _))⟩
  | Skel v => cases v; exact ⟨rfl, Nat.succ_pos _, inferInstanceAs (Nice (Skel.V10Data.image _))⟩
  | Nufx v => cases v <;> exact ⟨rfl, Nat.succ_pos _, by simp only [Ssbh.image, Nufx.image]; infer_instance⟩
  | Shdr v => cases v; exact ⟨rfl, Nat.succ_pos _, by simp only [Ssbh.image, Shdr.image]; infer_instance⟩
  | Matl v => cases v <;> exact ⟨rfl, Nat.succ_pos _, by simp only [Ssbh.image, Matl.image]; infer_instance⟩
  | Anim v => cases v <;> exact ⟨rfl, Nat.succ_pos _, by simp only [Ssbh.image, Anim.image]; infer_instance⟩
  | Hlpb v => cases v; exact ⟨rfl, Nat.succ_pos _, by simp only [Ssbh.image, Hlpb.image]; infer_instance⟩
  | Mesh v => cases v <;> exact ⟨rfl, Nat.succ_pos _, by simp only [Ssbh.image, Mesh.image]; infer_instance⟩
  | Nrpd v => cases v; exact ⟨rfl, Nat.succ_pos _, by simp only [Ssbh.image, Nrpd.image]; infer_instance⟩
  | Nlst v => cases v; exact ⟨rfl, Nat.succ_pos _, by simp only [Ssbh.image, Nlst.image]; infer_instance⟩

theorem stopAt_eq {f : Image.File} (h : NiceFile f) {k : Nat} (hk : 8 ∣ k) : stopAt f k = k + f.stop := by
  have := h.fields
  have hr : NiceT (record (fun x => x) f.fields) := inferInstance
  rw [stopAt, File.stop, hr.shift k 24 hk]

theorem stop_le {f : Image.File} (h : NiceFile f) : f.stop ≤ next 8 f.bytes.length :=
  File.stop_le h.magic h.align h.fields.good h.fields.tight

theorem next_eight_lt {n k : Nat} (hk : 8 ∣ k) (h : k + n + 8 ≤ 2 ^ 64) : k + next 8 n < 2 ^ 64 := by
  unfold next
  omega

/-- C69: writing fails only if the file had at least 2^64 - 7 bytes. -/
theorem C69_small (s : Ssbh) (h : s.image.bytes.length + 8 ≤ 2 ^ 64) : s.write = .ok s.image.bytes :=
  C69_success s (Nat.lt_of_le_of_lt (stop_le (ssbh_nice s)) (by
    have := next_eight_lt (n := s.image.bytes.length) (k := 0) (by decide) (by omega)
    omega))

/-- C62: a file which can be written alone can also be written into a stream, if the end of it is at a position below
2^64 - 7. -/
theorem C62_fits (s : Ssbh) (buf file : Bytes) (k : Nat) (hk : 16 ∣ k) (h : s.write = .ok file)
    (hl : k + file.length + 8 ≤ 2 ^ 64) : ∃ out q, s.writeStream buf k = .ok (out, q) := by
  have hk8 : 8 ∣ k := Nat.dvd_trans (by decide) hk
  have hb := C69_image s file h
  subst hb
  refine C62_success s buf k (Nat.lt_of_le_of_lt ?_ (next_eight_lt hk8 hl))
  rw [stopAt_eq (ssbh_nice s) hk8]
  exact Nat.add_le_add_left (stop_le (ssbh_nice s)) k

end Verif.Props
