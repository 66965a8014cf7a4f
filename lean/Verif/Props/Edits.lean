import Verif.Derive.EditLaws
import Verif.Derive.FormatsSame
import Verif.Props.Files
/-!
# C93: small changes
-/

namespace Verif.Props
open Verif Derive

/-- Two byte strings of the same length which differ in at most `k` places. -/
def CloseBytes (k : Nat) (b b' : Bytes) : Prop := b'.length = b.length ∧ (differences b b').card ≤ k

/-- Both fail with the same error, or the outputs are close. -/
def CloseResults (k : Nat) : Except WErr Bytes → Except WErr Bytes → Prop
  | .ok b, .ok b' => CloseBytes k b b'
  | .error e, .error e' => e = e'
  | _, _ => False

/-- The bytes of a number or an enum, if it changed. -/
def changed [DecidableEq α] (n : Nat) (a a' : α) : Nat := if a = a' then 0 else n

theorem NearR.close {k : Nat} : ∀ {r r'}, NearR k r r' →
    CloseResults k (match r with | .error e => .error e | .ok w => .ok w.buf) (match r' with | .error e => .error e | .ok w => .ok w.buf) := by
  intro r r' h
  cases h with
  | error e => rfl
  | ok h => exact ⟨h.log.render.1.symm, h.log.render.2⟩

/-- C93 for all types that derive `SsbhWrite`, on all platforms. -/
theorem C93_derived (P : Platform) (t : Ty) (v v' : t.Val) (k : Nat) (h : t.edit v v' = some k) :
    CloseResults k (t.toBytes P v) (t.toBytes P v') := by
  have := NearR.close ((t.similar P v v' k h).write 0 _ _ Near.init)
  rwa [Nat.zero_add] at this

theorem file_close (P : Platform) (magic : Bytes) (version : UInt16 × UInt16) (t : Ty) (v v' : t.Val) (k : Nat)
    (h : t.edit v v' = some k) : CloseResults k (t.file P magic version v) (t.file P magic version v') := by
  have ha := t.similar P v v' k h
  unfold Ty.file
  dsimp only
  rw [← ha.size]
  have := NearR.close (ha.write 0 _ _ (((Near.init.put [0x48, 0x42, 0x53, 0x53]).put (leBytes 8 64)).put (leBytes 4 0) |>.put magic
    |>.setDp ((writeSsbhHeader magic W.init).pos + ((t.codec P).size v + 4)) |>.put (leBytes 2 version.1.toNat)
    |>.put (leBytes 2 version.2.toNat)))
  rwa [Nat.zero_add] at this

theorem format_close {α : Type} [s : SsbhType α] {t : Ty} [h : DerivesFile α t] (v v' : α) (k : Nat)
    (hv : s.format.version v = s.format.version v') (he : t.edit (h.val v) (h.val v') = some k) :
    CloseResults k (writeAs v) (writeAs v') := by
  rw [DerivesFile.bytes, DerivesFile.bytes, hv]
  exact file_close _ _ _ _ _ _ _ he

/-- The bytes of a file that change: the values are of the same type and version and differ in numbers, bytes of buffers and
characters. -/
def editFile : Ssbh → Ssbh → Option Nat
  | .Hlpb v, .Hlpb v' => Hlpb.ty.edit (DerivesFile.val v) (DerivesFile.val v')
  | .Matl v, .Matl v' => Matl.ty.edit (DerivesFile.val v) (DerivesFile.val v')
  | .Modl v, .Modl v' => Modl.ty.edit (DerivesFile.val v) (DerivesFile.val v')
  | .Mesh v, .Mesh v' => Mesh.ty.edit (DerivesFile.val v) (DerivesFile.val v')
  | .Skel v, .Skel v' => Skel.ty.edit (DerivesFile.val v) (DerivesFile.val v')
  | .Anim v, .Anim v' => Anim.ty.edit (DerivesFile.val v) (DerivesFile.val v')
  | .Nlst v, .Nlst v' => Nlst.ty.edit (DerivesFile.val v) (DerivesFile.val v')
  | .Nrpd v, .Nrpd v' => Nrpd.ty.edit (DerivesFile.val v) (DerivesFile.val v')
  | .Nufx v, .Nufx v' => Nufx.ty.edit (DerivesFile.val v) (DerivesFile.val v')
  | .Shdr v, .Shdr v' => Shdr.ty.edit (DerivesFile.val v) (DerivesFile.val v')
  | _, _ => none

/-- C93: changing numbers, bytes of buffers and characters of a value changes at most as many bytes of the file, and nothing
moves. -/
theorem C93_small (s s' : Ssbh) (k : Nat) (h : editFile s s' = some k) : CloseResults k s.write s'.write := by
  have key : ∀ {α : Type} [t : SsbhType α] [hl : LawSsbh α] {ty : Ty} [hd : DerivesFile α ty] (v v' : α),
      t.format.version v = t.format.version v' → ty.edit (hd.val v) (hd.val v') = some k →
      CloseResults k (t.inj v).write (t.inj v').write := by
    intro α t hl ty hd v v' hv he
    have := format_close v v' k hv he
    simp only [Ssbh.write, hl.write]
    exact this
  cases s <;> cases s' <;> simp only [editFile, reduceCtorEq] at h
  all_goals rename_i v v'
  · refine key v v' ?_ h
    cases v; cases v'; rfl
  · refine key v v' ?_ h
    cases v <;> cases v' <;> first | rfl | exact absurd h (fun h => nomatch h)
  · refine key v v' ?_ h
    cases v; cases v'; rfl
  · refine key v v' ?_ h
    cases v <;> cases v' <;> first | rfl | exact absurd h (fun h => nomatch h)
  · refine key v v' ?_ h
    cases v; cases v'; rfl
  · refine key v v' ?_ h
    cases v <;> cases v' <;> first | rfl | exact absurd h (fun h => nomatch h)
  · refine key v v' ?_ h
    cases v; cases v'; rfl
  · refine key v v' ?_ h
    cases v; cases v'; rfl
  · refine key v v' ?_ h
    cases v <;> cases v' <;> first | rfl | exact absurd h (fun h => nomatch h)
  · refine key v v' ?_ h
    cases v; cases v'; rfl

/-! ## Examples -/

/-- `exModl` with another model, of the same length, and another sub index. -/
def exModl2 : Ssbh := .Modl (.V17 {
  model_name := str "mOdEl", skeleton_file_name := str "", material_file_names := [str "a.numatb", none],
  animation_file_name := some (str "x"), mesh_file_name := str "model.numshb",
  entries := [⟨str "obj", 1, str "mat"⟩, ⟨none, 7, str "m"⟩] })

example : editFile exModl exModl2 = some 10 := by decide +kernel
example : ∃ b b', exModl.write = .ok b ∧ exModl2.write = .ok b' ∧ b ≠ b' ∧ CloseBytes 10 b b' := by
  obtain ⟨b, hb⟩ := exModl_write
  obtain ⟨b', hb'⟩ : ∃ b, exModl2.write = .ok b := isOk_iff.mp (by decide +kernel)
  have h := C93_small exModl exModl2 10 (by decide +kernel)
  rw [hb, hb'] at h
  refine ⟨b, b', hb, hb', ?_, h⟩
  rintro rfl
  have := (C01_ssbh_round_trip _ _ hb).symm.trans (C01_ssbh_round_trip _ _ hb')
  exact absurd (Except.ok.inj this) (by decide)

/-- A name of another length moves what follows. -/
example : editFile exModl (.Modl (.V17 ⟨str "models", str "", [str "a.numatb", none], some (str "x"), str "model.numshb",
    [⟨str "obj", 1, str "mat"⟩, ⟨none, 0, str "m"⟩]⟩)) = none := by decide +kernel

/-- One byte of a vertex buffer. -/
example : ∃ s, editFile exMesh s = some 1 := ⟨.Mesh (.V9 {
  model_name := str "m"
  bounding_info := ⟨⟨⟨1, 2, 3⟩, 4⟩, ⟨⟨1, 2, 3⟩, ⟨1, 2, 3⟩⟩, ⟨⟨1, 2, 3⟩, ⟨⟨1, 2, 3⟩, ⟨1, 2, 3⟩, ⟨1, 2, 3⟩⟩, ⟨1, 2, 3⟩⟩⟩
  unk1 := 0, objects := [], buffer_sizes := [3], polygon_index_size := 7
  vertex_buffers := [[1, 8, 3], []], index_buffer := [9, 9, 9]
  rigging_buffers := [⟨str "a", 0, ⟨1, 1⟩, [⟨str "b", [⟨1, 5⟩]⟩]⟩] }), by decide +kernel⟩

end Verif.Props
