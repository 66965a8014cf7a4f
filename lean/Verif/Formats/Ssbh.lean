import Verif.Formats.Nlst
import Verif.Formats.Shdr
import Verif.Formats.Modl
import Verif.Formats.Skel
import Verif.Formats.Hlpb
import Verif.Formats.Nufx
import Verif.Formats.Anim
import Verif.Formats.Mesh
import Verif.Formats.Matl
import Verif.Formats.Nrpd
/-!
# The SSBH container

`SsbhFile`, and the `read` and `write` methods of the ten format types.
-/

namespace Verif

/-- /repo/ssbh_lib/src/lib.rs:506-537 -/
inductive Ssbh where
  | Hlpb (v : Hlpb)
  | Matl (v : Matl)
  | Modl (v : Modl)
  | Mesh (v : Mesh)
  | Skel (v : Skel)
  | Anim (v : Anim)
  | Nlst (v : Nlst)
  | Nrpd (v : Nrpd)
  | Nufx (v : Nufx)
  | Shdr (v : Shdr)
  deriving DecidableEq, Repr

/-- Wrap the result of reading into a variant. -/
def wrap (f : α → Ssbh) : Except RErr α → Except RErr Ssbh
  | .error e => .error e
  | .ok v => .ok (f v)

/-- `Ssbh::read_options` after the header, /repo/ssbh_lib/src/lib.rs:506-537: the magic selects the variant, which
begins at position `p`. (binrw tries the variants in order and restores the position; the magics are different, so at
most one can succeed.) -/
def Ssbh.readDataAt (magic : Bytes) (b : Bytes) (p : Nat) : Except RErr Ssbh :=
  if magic = Hlpb.format.magic then wrap .Hlpb (Hlpb.format.readVersioned b p)
  else if magic = Matl.format.magic then wrap .Matl (Matl.format.readVersioned b p)
  else if magic = Modl.format.magic then wrap .Modl (Modl.format.readVersioned b p)
  else if magic = Mesh.format.magic then wrap .Mesh (Mesh.format.readVersioned b p)
  else if magic = Skel.format.magic then wrap .Skel (Skel.format.readVersioned b p)
  else if magic = Anim.format.magic then wrap .Anim (Anim.format.readVersioned b p)
  else if magic = Nlst.format.magic then wrap .Nlst (Nlst.format.readVersioned b p)
  else if magic = Nrpd.format.magic then wrap .Nrpd (Nrpd.format.readVersioned b p)
  else if magic = Nufx.format.magic then wrap .Nufx (Nufx.format.readVersioned b p)
  else if magic = Shdr.format.magic then wrap .Shdr (Shdr.format.readVersioned b p)
  else .error .badTag

/-- `SsbhFile::read`, /repo/ssbh_lib/src/lib.rs:182-186 and 496-501, with the reader at position `p`. -/
def Ssbh.readAt (b : Bytes) (p : Nat) : Except RErr Ssbh :=
  match readSsbhMagicAt b p with
  | .error e => .error e
  | .ok (magic, q) => Ssbh.readDataAt magic b q

/-- `SsbhFile::read` of a file which is the whole input. -/
def Ssbh.read (b : Bytes) : Except RErr Ssbh := Ssbh.readAt b 0

def Ssbh.readData (magic : Bytes) (b : Bytes) : Except RErr Ssbh := Ssbh.readDataAt magic b 20

theorem Ssbh.read_eq (b : Bytes) : Ssbh.read b =
    match readSsbhMagic b with
    | .error e => .error e
    | .ok magic => Ssbh.readData magic b := by
  simp only [Ssbh.read, Ssbh.readAt, readSsbhMagicAt_zero]
  cases readSsbhMagic b <;> rfl

/-- `SsbhFile::write`, /repo/ssbh_lib/src/lib.rs:190-193 and 756-772, into a stream. -/
def Ssbh.writeTo : Ssbh → W → Except WErr W
  | .Modl v, w => Modl.format.writeTo v w
  | .Skel v, w => Skel.format.writeTo v w
  | .Nufx v, w => Nufx.format.writeTo v w
  | .Shdr v, w => Shdr.format.writeTo v w
  | .Matl v, w => Matl.format.writeTo v w
  | .Anim v, w => Anim.format.writeTo v w
  | .Hlpb v, w => Hlpb.format.writeTo v w
  | .Mesh v, w => Mesh.format.writeTo v w
  | .Nrpd v, w => Nrpd.format.writeTo v w
  | .Nlst v, w => Nlst.format.writeTo v w

/-- `SsbhFile::write` into an empty writer: final state of the writer. -/
def Ssbh.writeFile (s : Ssbh) : Except WErr W := s.writeTo W.init

/-- The bytes which `SsbhFile::write` leaves in an empty writer. -/
def Ssbh.write (s : Ssbh) : Except WErr Bytes :=
  match s.writeFile with
  | .error e => .error e
  | .ok w => .ok w.buf

/-! The methods of the format types, `ssbh_read_write_impl!`, /repo/ssbh_lib/src/lib.rs:220-260. -/

/-- One of the ten types: its `Format` and its variant of `Ssbh`. -/
class SsbhType (α : Type) where
  format : Format α
  inj : α → Ssbh
  proj : Ssbh → Option α

/-- `T::read` -/
def readAs (α : Type) [t : SsbhType α] (b : Bytes) : Except RErr α :=
  match Ssbh.read b with
  | .error e => .error e
  | .ok s =>
    match t.proj s with
    | some v => .ok v
    | none => .error .wrongType

/-- `T::write` -/
def writeAs [t : SsbhType α] (v : α) : Except WErr Bytes := t.format.toBytes v

instance : SsbhType Hlpb := ⟨Hlpb.format, .Hlpb, fun | .Hlpb v => some v | _ => none⟩
instance : SsbhType Matl := ⟨Matl.format, .Matl, fun | .Matl v => some v | _ => none⟩
instance : SsbhType Modl := ⟨Modl.format, .Modl, fun | .Modl v => some v | _ => none⟩
instance : SsbhType Mesh := ⟨Mesh.format, .Mesh, fun | .Mesh v => some v | _ => none⟩
instance : SsbhType Skel := ⟨Skel.format, .Skel, fun | .Skel v => some v | _ => none⟩
instance : SsbhType Anim := ⟨Anim.format, .Anim, fun | .Anim v => some v | _ => none⟩
instance : SsbhType Nlst := ⟨Nlst.format, .Nlst, fun | .Nlst v => some v | _ => none⟩
instance : SsbhType Nrpd := ⟨Nrpd.format, .Nrpd, fun | .Nrpd v => some v | _ => none⟩
instance : SsbhType Nufx := ⟨Nufx.format, .Nufx, fun | .Nufx v => some v | _ => none⟩
instance : SsbhType Shdr := ⟨Shdr.format, .Shdr, fun | .Shdr v => some v | _ => none⟩

/-- How the container, the format and the variant belong together. -/
class LawSsbh (α : Type) [t : SsbhType α] : Prop where
  law : LawFormat t.format
  proj : ∀ v, t.proj (t.inj v) = some v
  inj : ∀ s v, t.proj s = some v → s = t.inj v
  write : ∀ v, (t.inj v).writeFile = t.format.writeFile v
  writeTo : ∀ v w, (t.inj v).writeTo w = t.format.writeTo v w
  readData : ∀ b, Ssbh.readData t.format.magic b = wrap t.inj (t.format.readVersioned b 20)
  readDataAt : ∀ b p, Ssbh.readDataAt t.format.magic b p = wrap t.inj (t.format.readVersioned b p)
  readData_inv : ∀ m b v, Ssbh.readData m b = .ok (t.inj v) →
    m = t.format.magic ∧ t.format.readVersioned b 20 = .ok v

theorem wrap_ok {f : α → Ssbh} {r : Except RErr α} {s} (h : wrap f r = .ok s) : ∃ v, r = .ok v ∧ s = f v := by
  cases r with
  | error e => cases h
  | ok v => cases h; exact ⟨v, rfl, rfl⟩

theorem Ssbh.readData_cases {m b s} (h : Ssbh.readData m b = .ok s) :
    (∃ v, s = .Hlpb v ∧ m = Hlpb.format.magic ∧ Hlpb.format.readVersioned b 20 = .ok v) ∨
    (∃ v, s = .Matl v ∧ m = Matl.format.magic ∧ Matl.format.readVersioned b 20 = .ok v) ∨
    (∃ v, s = .Modl v ∧ m = Modl.format.magic ∧ Modl.format.readVersioned b 20 = .ok v) ∨
    (∃ v, s = .Mesh v ∧ m = Mesh.format.magic ∧ Mesh.format.readVersioned b 20 = .ok v) ∨
    (∃ v, s = .Skel v ∧ m = Skel.format.magic ∧ Skel.format.readVersioned b 20 = .ok v) ∨
    (∃ v, s = .Anim v ∧ m = Anim.format.magic ∧ Anim.format.readVersioned b 20 = .ok v) ∨
    (∃ v, s = .Nlst v ∧ m = Nlst.format.magic ∧ Nlst.format.readVersioned b 20 = .ok v) ∨
    (∃ v, s = .Nrpd v ∧ m = Nrpd.format.magic ∧ Nrpd.format.readVersioned b 20 = .ok v) ∨
    (∃ v, s = .Nufx v ∧ m = Nufx.format.magic ∧ Nufx.format.readVersioned b 20 = .ok v) ∨
    (∃ v, s = .Shdr v ∧ m = Shdr.format.magic ∧ Shdr.format.readVersioned b 20 = .ok v) := by
  unfold Ssbh.readData Ssbh.readDataAt at h
  split at h
  · obtain ⟨v, h1, h2⟩ := wrap_ok h; exact .inl ⟨v, h2, ‹_›, h1⟩
  split at h
  · obtain ⟨v, h1, h2⟩ := wrap_ok h; exact .inr <| .inl ⟨v, h2, ‹_›, h1⟩
  split at h
  · obtain ⟨v, h1, h2⟩ := wrap_ok h; exact .inr <| .inr <| .inl ⟨v, h2, ‹_›, h1⟩
  split at h
  · obtain ⟨v, h1, h2⟩ := wrap_ok h; exact .inr <| .inr <| .inr <| .inl ⟨v, h2, ‹_›, h1⟩
  split at h
  · obtain ⟨v, h1, h2⟩ := wrap_ok h; exact .inr <| .inr <| .inr <| .inr <| .inl ⟨v, h2, ‹_›, h1⟩
  split at h
  · obtain ⟨v, h1, h2⟩ := wrap_ok h
    exact .inr <| .inr <| .inr <| .inr <| .inr <| .inl ⟨v, h2, ‹_›, h1⟩
  split at h
  · obtain ⟨v, h1, h2⟩ := wrap_ok h
    exact .inr <| .inr <| .inr <| .inr <| .inr <| .inr <| .inl ⟨v, h2, ‹_›, h1⟩
  split at h
  · obtain ⟨v, h1, h2⟩ := wrap_ok h
    exact .inr <| .inr <| .inr <| .inr <| .inr <| .inr <| .inr <| .inl ⟨v, h2, ‹_›, h1⟩
  split at h
  · obtain ⟨v, h1, h2⟩ := wrap_ok h
    exact .inr <| .inr <| .inr <| .inr <| .inr <| .inr <| .inr <| .inr <| .inl ⟨v, h2, ‹_›, h1⟩
  split at h
  · obtain ⟨v, h1, h2⟩ := wrap_ok h
    exact .inr <| .inr <| .inr <| .inr <| .inr <| .inr <| .inr <| .inr <| .inr ⟨v, h2, ‹_›, h1⟩
  cases h

local macro "law_ssbh" f:term : tactic => `(tactic| (
  constructor
  · exact (inferInstance : LawFormat $f)
  · intro v; rfl
  · intro s v h; cases s <;> simp_all [SsbhType.proj, SsbhType.inj]
  · intro v; rfl
  · intro v w; rfl
  · intro b; rfl
  · intro b p; rfl
  · intro m b v h
    obtain ⟨x, hx, h⟩ | ⟨x, hx, h⟩ | ⟨x, hx, h⟩ | ⟨x, hx, h⟩ | ⟨x, hx, h⟩ | ⟨x, hx, h⟩ | ⟨x, hx, h⟩ |
      ⟨x, hx, h⟩ | ⟨x, hx, h⟩ | ⟨x, hx, h⟩ := Ssbh.readData_cases h <;> cases hx <;> exact h))

instance : LawSsbh Hlpb := by law_ssbh Hlpb.format
instance : LawSsbh Matl := by law_ssbh Matl.format
instance : LawSsbh Modl := by law_ssbh Modl.format
instance : LawSsbh Mesh := by law_ssbh Mesh.format
instance : LawSsbh Skel := by law_ssbh Skel.format
instance : LawSsbh Anim := by law_ssbh Anim.format
instance : LawSsbh Nlst := by law_ssbh Nlst.format
instance : LawSsbh Nrpd := by law_ssbh Nrpd.format
instance : LawSsbh Nufx := by law_ssbh Nufx.format
instance : LawSsbh Shdr := by law_ssbh Shdr.format

/-- Every container holds one of the ten types. -/
theorem Ssbh.exists_type (s : Ssbh) :
    ∃ (α : Type) (t : SsbhType α) (_ : LawSsbh α) (v : α), s = t.inj v := by
  cases s with
  | Hlpb v => exact ⟨_, inferInstance, inferInstance, v, rfl⟩
  | Matl v => exact ⟨_, inferInstance, inferInstance, v, rfl⟩
  | Modl v => exact ⟨_, inferInstance, inferInstance, v, rfl⟩
  | Mesh v => exact ⟨_, inferInstance, inferInstance, v, rfl⟩
  | Skel v => exact ⟨_, inferInstance, inferInstance, v, rfl⟩
  | Anim v => exact ⟨_, inferInstance, inferInstance, v, rfl⟩
  | Nlst v => exact ⟨_, inferInstance, inferInstance, v, rfl⟩
  | Nrpd v => exact ⟨_, inferInstance, inferInstance, v, rfl⟩
  | Nufx v => exact ⟨_, inferInstance, inferInstance, v, rfl⟩
  | Shdr v => exact ⟨_, inferInstance, inferInstance, v, rfl⟩

end Verif
