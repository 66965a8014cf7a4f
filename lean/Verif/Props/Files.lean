import Verif.Lib.FileLaws
/-!
# Properties of SSBH files: C01 - C06, C08, C09, C16

`Ssbh.write s : Except WErr Bytes` is `SsbhFile::write` into an empty buffer, `Ssbh.read` is `SsbhFile::read`,
`writeAs` and `readAs` are the `write` and `read` methods of the ten format types.
`Ssbh.writeFile s` is the final writer state, whose `log` is the list of all `write_all` calls.
-/

namespace Verif.Props
open Verif

/-! ## An example value for the hypotheses -/

/-- The bytes of an ASCII text. -/
def ascii (s : String) : Bytes := s.toList.map (fun c => UInt8.ofNat c.toNat)

/-- A string from text, for examples. -/
def str (s : String) : SsbhString := some (CStr.fromBytes (ascii s))

def exModl : Ssbh := .Modl (.V17 {
  model_name := str "model", skeleton_file_name := str "", material_file_names := [str "a.numatb", none],
  animation_file_name := some (str "x"), mesh_file_name := str "model.numshb",
  entries := [⟨str "obj", 1, str "mat"⟩, ⟨none, 0, str "m"⟩] })

def isOk : Except ε α → Bool
  | .ok _ => true
  | .error _ => false

theorem isOk_iff {r : Except ε α} : isOk r = true ↔ ∃ x, r = .ok x := by
  cases r <;> simp [isOk]

/-- `exModl` can be written, so the hypotheses of the theorems below are met by a value with strings,
null pointers, nested pointers and arrays. -/
theorem exModl_write : ∃ bytes, exModl.write = .ok bytes := isOk_iff.mp (by decide +kernel)

def exMesh : Ssbh := .Mesh (.V9 {
  model_name := str "m"
  bounding_info := ⟨⟨⟨1, 2, 3⟩, 4⟩, ⟨⟨1, 2, 3⟩, ⟨1, 2, 3⟩⟩, ⟨⟨1, 2, 3⟩, ⟨⟨1, 2, 3⟩, ⟨1, 2, 3⟩, ⟨1, 2, 3⟩⟩, ⟨1, 2, 3⟩⟩⟩
  unk1 := 0, objects := [], buffer_sizes := [3], polygon_index_size := 7
  vertex_buffers := [[1, 2, 3], []], index_buffer := [9, 9, 9]
  rigging_buffers := [⟨str "a", 0, ⟨1, 1⟩, [⟨str "b", [⟨1, 5⟩]⟩]⟩] })

theorem exMesh_write : ∃ bytes, exMesh.write = .ok bytes := isOk_iff.mp (by decide +kernel)

/-! ## C01 -/

/-- C01 for the container: what is written is read back. -/
theorem C01_ssbh_round_trip (s : Ssbh) (bytes : Bytes) (h : s.write = .ok bytes) :
    Ssbh.read bytes = .ok s := by
  obtain ⟨w, hw, rfl⟩ := Ssbh.write_ok h
  obtain ⟨hd, hr⟩ := Ssbh.trace hw
  exact hr _ (render_hasAll hd)

example : ∃ bytes, exModl.write = .ok bytes ∧ Ssbh.read bytes = .ok exModl :=
  let ⟨b, h⟩ := exModl_write; ⟨b, h, C01_ssbh_round_trip _ _ h⟩

/-- C01 for `T::write` and `T::read` of each of the ten types. -/
theorem C01_format_round_trip {α : Type} [SsbhType α] [LawSsbh α] (v : α) (bytes : Bytes)
    (h : writeAs v = .ok bytes) : readAs α bytes = .ok v := by
  have hs : (SsbhType.inj v).write = .ok bytes := by
    simp only [Ssbh.write, LawSsbh.write]
    exact h
  simp only [readAs, C01_ssbh_round_trip _ _ hs, LawSsbh.proj]

/-- The types C01 is about. -/
example : LawSsbh Hlpb ∧ LawSsbh Matl ∧ LawSsbh Modl ∧ LawSsbh Mesh ∧ LawSsbh Skel ∧ LawSsbh Anim ∧
    LawSsbh Nlst ∧ LawSsbh Nrpd ∧ LawSsbh Nufx ∧ LawSsbh Shdr :=
  ⟨inferInstance, inferInstance, inferInstance, inferInstance, inferInstance, inferInstance,
    inferInstance, inferInstance, inferInstance, inferInstance⟩

/-- `write` has no other way to fail than a position which needs more than 64 bits. -/
theorem C01_write_total (s : Ssbh) (e : WErr) (h : s.write = .error e) : e = .overflow := by
  obtain ⟨α, t, l, v, rfl⟩ := s.exists_type
  have := l.law
  simp only [Ssbh.write, l.write, Format.writeFile_eq] at h
  cases hb : t.format.writeBody v with
  | error e' =>
    simp only [hb, Except.error.injEq] at h
    subst h
    exact this.total _ _ _ hb
  | ok w => simp [hb] at h

/-! ## C02 -/

/-- C02: reading a written file and writing it again gives the same bytes. -/
theorem C02_rewrite_fixed_point (s : Ssbh) (bytes : Bytes) (h : s.write = .ok bytes) :
    ∃ s', Ssbh.read bytes = .ok s' ∧ s'.write = .ok bytes :=
  ⟨s, C01_ssbh_round_trip s bytes h, h⟩

/-! ## C03 -/

/-- C03: bytes after the end of the file do not matter. -/
theorem C03_trailing_bytes (s : Ssbh) (bytes rest : Bytes) (h : s.write = .ok bytes) :
    Ssbh.read (bytes ++ rest) = .ok s := by
  obtain ⟨w, hw, rfl⟩ := Ssbh.write_ok h
  obtain ⟨hd, hr⟩ := Ssbh.trace hw
  exact hr _ (render_hasAll hd).append

/-- Position `i` of the output was written by some `write_all`. -/
def Written (w : W) (i : Nat) : Prop := ∃ e ∈ w.log, e.writes i

/-- C03: only the positions which the writer wrote matter. Any input which agrees with the file on these
positions is read as the same value. -/
theorem C03_only_written_bytes (s : Ssbh) (w : W) (h : s.writeFile = .ok w) (b : Bytes)
    (hb : ∀ i, Written w i → b[i]? = w.buf[i]?) : Ssbh.read b = .ok s := by
  obtain ⟨hd, hr⟩ := Ssbh.trace h
  refine hr b ?_
  intro p bs hm i hi
  have h1 := render_hasAll hd p bs hm i hi
  rw [hb (p + i) ⟨_, hm, by simp only [Ev.writes]; omega⟩]
  exact h1

/-- The hypothesis about `b` is met by other inputs than the file itself. -/
example (w : W) (rest : Bytes) (hlen : ∀ i, Written w i → i < w.buf.length) :
    ∀ i, Written w i → (w.buf ++ rest)[i]? = w.buf[i]? := by
  intro i hi
  rw [List.getElem?_append_left (hlen i hi)]

/-! ## C04 -/

/-- C04: no position is written by two different `write_all` calls. -/
theorem C04_no_overlap (s : Ssbh) (w : W) (h : s.writeFile = .ok w) :
    w.log.Pairwise (fun e f => ∀ i, ¬ (e.writes i ∧ f.writes i)) := by
  refine (Ssbh.trace h).1.imp ?_
  intro e f hef i ⟨h1, h2⟩
  cases e <;> cases f <;> simp only [Ev.writes] at h1 h2
  exact hef i ⟨h1.1, h1.2, h2.1, h2.2⟩

example : ∃ w, exModl.writeFile = .ok w ∧ 20 < w.log.length := by
  obtain ⟨w, h⟩ := isOk_iff.mp (show isOk exModl.writeFile = true by decide +kernel)
  refine ⟨w, h, ?_⟩
  have : (match exModl.writeFile with | .ok w => decide (20 < w.log.length) | _ => false) = true := by
    decide +kernel
  rw [h] at this
  simpa using this

/-! ## C05 -/

/-- C05: for each pointer (stored at `p`, relative to `b`, with target `t` and required alignment `a`):
the target is aligned, the stored number is `t - b` and not zero, the target is past the end of each
structure that contains the pointer; and targets never decrease (`log` has the newest event first). -/
theorem C05_offsets (s : Ssbh) (w : W) (h : s.writeFile = .ok w) :
    (∀ p b t a, Ev.ptr p b t a ∈ w.log →
      a ∣ t ∧ b < t ∧ ∃ k, Ev.data p (leBytes k (t - b)) ∈ w.log ∧ t - b < 256 ^ k) ∧
    (∀ p b t a q m, Ev.ptr p b t a ∈ w.log → Ev.obj q m ∈ w.log → q ≤ p → p < q + m → q + m ≤ t) ∧
    w.log.Pairwise (fun new old => ∀ p b t a p' b' t' a',
      new = .ptr p b t a → old = .ptr p' b' t' a' → t' ≤ t) := by
  obtain ⟨h1, h2, h3⟩ := Ssbh.pointers h
  refine ⟨?_, h3, ?_⟩
  · intro p b t a hm
    obtain ⟨x1, x2, k, x3, x4, x5⟩ := h2 p b t a hm
    exact ⟨x1, by omega, k, x3, x4⟩
  · refine h1.imp ?_
    rintro e f hef p b t a p' b' t' a' rfl rfl
    exact hef

/-- There are pointers in the example. -/
example : (match exModl.writeFile with
    | .ok w => decide (10 ≤ (w.log.filter (fun | .ptr .. => true | _ => false)).length)
    | _ => false) = true := by
  decide +kernel

/-! ## C06 -/

/-- C06: all other bytes of the file are zero. -/
theorem C06_padding_zero (s : Ssbh) (w : W) (_ : s.writeFile = .ok w) (i : Nat)
    (hi : i < w.buf.length) (hw : ¬ Written w i) : w.buf[i]? = some 0 :=
  render_zero hi (fun hc => hw (covered_iff.mp hc))

/-! ## C08 -/

/-- The supported versions of each format. -/
def supported : Ssbh → List (UInt16 × UInt16)
  | .Hlpb _ => [(1, 1)]
  | .Matl _ => [(1, 5), (1, 6)]
  | .Modl _ => [(1, 7)]
  | .Mesh _ => [(1, 8), (1, 9), (1, 10)]
  | .Skel _ => [(1, 0)]
  | .Anim _ => [(1, 2), (2, 0), (2, 1)]
  | .Nlst _ => [(1, 0)]
  | .Nrpd _ => [(1, 6)]
  | .Nufx _ => [(1, 0), (1, 1)]
  | .Shdr _ => [(1, 2)]

/-- The magic of each format, at byte 16. -/
def magicOf : Ssbh → Bytes
  | .Hlpb _ => (ascii "BPLH")
  | .Matl _ => (ascii "LTAM")
  | .Modl _ => (ascii "LDOM")
  | .Mesh _ => (ascii "HSEM")
  | .Skel _ => (ascii "LEKS")
  | .Anim _ => (ascii "MINA")
  | .Nlst _ => (ascii "TSLN")
  | .Nrpd _ => (ascii "DPRN")
  | .Nufx _ => (ascii "XFUN")
  | .Shdr _ => (ascii "RDHS")

/-- The version of a value. -/
def versionOf : Ssbh → UInt16 × UInt16
  | .Hlpb (.V11 _) => (1, 1)
  | .Matl (.V15 _) => (1, 5)
  | .Matl (.V16 _) => (1, 6)
  | .Modl (.V17 _) => (1, 7)
  | .Mesh (.V8 _) => (1, 8)
  | .Mesh (.V9 _) => (1, 9)
  | .Mesh (.V10 _) => (1, 10)
  | .Skel (.V10 _) => (1, 0)
  | .Anim (.V12 _) => (1, 2)
  | .Anim (.V20 _) => (2, 0)
  | .Anim (.V21 _) => (2, 1)
  | .Nlst (.V10 _) => (1, 0)
  | .Nrpd (.V16 _) => (1, 6)
  | .Nufx (.V0 _) => (1, 0)
  | .Nufx (.V1 _) => (1, 1)
  | .Shdr (.V12 _) => (1, 2)

theorem readSsbhMagic_ok {b m : Bytes} (h : readSsbhMagic b = .ok m) :
    20 ≤ b.length ∧ b.take 4 = (ascii "HBSS") ∧ (b.drop 16).take 4 = m := by
  simp only [readSsbhMagic_eq, readBytes] at h
  split at h
  · cases h
  rename_i m0 p0 h0
  split at h0
  · cases h0
    split at h
    · cases h
    rename_i hm
    split at h
    · cases h
    rename_i m1 p1 h1
    split at h1
    · cases h1
      cases h
      refine ⟨by omega, ?_, rfl⟩
      have : b.take 4 = [0x48, 0x42, 0x53, 0x53] := by simpa using hm
      rw [this]; decide
    · cases h1
  · cases h0

theorem readVersioned_ok {f : Format α} [hf : LawFormat f] {b : Bytes} {p : Nat} {v : α}
    (h : f.readVersioned b p = .ok v) :
    p + 4 ≤ b.length ∧ f.version v = (UInt16.ofNat (fromLe ((b.drop p).take 2)),
      UInt16.ofNat (fromLe ((b.drop (p + 2)).take 2))) := by
  simp only [Format.readVersioned, readLe, readBytes] at h
  by_cases h1 : 2 ≤ b.length - p
  · rw [if_pos h1] at h
    simp only at h
    by_cases h2 : 2 ≤ b.length - (p + 2)
    · rw [if_pos h2] at h
      simp only at h
      split at h
      · cases h
      · rename_i v' p' hr
        cases h
        exact ⟨by omega, hf.version _ _ _ _ _ _ hr⟩
    · rw [if_neg h2] at h; cases h
  · rw [if_neg h1] at h; cases h

/-- C08 and C09: whatever is read successfully has the container magic, the magic of the format, and a
supported version at its place, and the value is of that version. -/
theorem C08_read_checks (b : Bytes) (s : Ssbh) (h : Ssbh.read b = .ok s) :
    24 ≤ b.length ∧ b.take 4 = (ascii "HBSS") ∧ (b.drop 16).take 4 = magicOf s ∧
    versionOf s ∈ supported s ∧
    versionOf s = (UInt16.ofNat (fromLe ((b.drop 20).take 2)), UInt16.ofNat (fromLe ((b.drop 22).take 2))) := by
  rw [Ssbh.read_eq] at h
  split at h
  · cases h
  rename_i m hm
  obtain ⟨h1, h2, h3⟩ := readSsbhMagic_ok hm
  have key : ∀ {α : Type} {f : Format α} [LawFormat f] {v : α} (x : UInt16 × UInt16),
      f.readVersioned b 20 = .ok v → f.version v = x →
      24 ≤ b.length ∧ x = (UInt16.ofNat (fromLe ((b.drop 20).take 2)), UInt16.ofNat (fromLe ((b.drop 22).take 2))) := by
    intro α f _ v x hv hx
    obtain ⟨y1, y2⟩ := readVersioned_ok hv
    exact ⟨y1, hx ▸ y2⟩
  obtain ⟨v, rfl, hm, hr⟩ | ⟨v, rfl, hm, hr⟩ | ⟨v, rfl, hm, hr⟩ | ⟨v, rfl, hm, hr⟩ | ⟨v, rfl, hm, hr⟩ |
    ⟨v, rfl, hm, hr⟩ | ⟨v, rfl, hm, hr⟩ | ⟨v, rfl, hm, hr⟩ | ⟨v, rfl, hm, hr⟩ | ⟨v, rfl, hm, hr⟩ :=
      Ssbh.readData_cases h <;> cases v <;>
    exact ⟨(key _ hr rfl).1, h2, by rw [h3, hm]; rfl, by simp [versionOf, supported], (key _ hr rfl).2⟩

/-- C08: a value is only returned for files of the requested type. -/
theorem C08_foreign_rejected {α : Type} [t : SsbhType α] [l : LawSsbh α] (b : Bytes) (v : α)
    (h : readAs α b = .ok v) : Ssbh.read b = .ok (t.inj v) ∧ (b.drop 16).take 4 = magicOf (t.inj v) := by
  simp only [readAs] at h
  split at h
  · cases h
  rename_i s hs
  split at h
  · rename_i v' hv
    cases h
    have := l.inj _ _ hv
    subst this
    exact ⟨hs, (C08_read_checks _ _ hs).2.2.1⟩
  · cases h

/-- C08: a well formed file of another type gives `InvalidSsbhType`. -/
theorem C08_wrong_type {α : Type} [t : SsbhType α] [LawSsbh α] (b : Bytes) (s : Ssbh)
    (h : Ssbh.read b = .ok s) (hs : ∀ v, s ≠ t.inj v) : readAs α b = .error .wrongType := by
  simp only [readAs, h]
  split
  · rename_i v hv
    exact (hs v (LawSsbh.inj _ _ hv)).elim
  · rfl

example : ∃ b, readAs Skel b = .error .wrongType :=
  let ⟨b, h⟩ := exModl_write
  ⟨b, C08_wrong_type b exModl (C01_ssbh_round_trip _ _ h) (by intro v h; cases h)⟩

/-- C08: an unlisted tag of an enumeration is an error. -/
theorem C08_enum_tags (n : Nat) (tags : List Nat) (b : Bytes) (p : Nat) (v : ReprEnum tags) (p' : Nat)
    (h : (reprEnum n tags).read b p = .ok (v, p')) :
    v.tag = fromLe ((b.drop p).take n) ∧ v.tag ∈ tags ∧ p' = p + n ∧ n ≤ b.length - p := by
  simp only [reprEnum, struct, prim, readLe, readBytes] at h
  by_cases hn : n ≤ b.length - p
  · rw [if_pos hn] at h
    simp only [ReprEnum.ofNat] at h
    split at h
    · rename_i a ha
      split at ha
      · cases ha
        cases h
        exact ⟨rfl, ‹_›, rfl, hn⟩
      · cases ha
    · cases h
  · rw [if_neg hn] at h
    cases h

/-- C08: an unlisted tag of a material parameter is an error (the same shape holds for the unions of
Nrpd). -/
theorem C08_param_tags (tag : Nat) (b : Bytes) (p : Nat) (v : Matl.ParamV16) (p' : Nat)
    (h : Matl.ParamV16.tagged.read tag b p = .ok (v, p')) :
    tag = Matl.ParamV16.tagged.tag v ∧ tag ∈ [1, 2, 5, 7, 11, 14, 16, 17, 18] := by
  simp only [Matl.ParamV16.tagged] at h
  repeat' (split at h)
  all_goals first
    | (obtain ⟨x, rfl⟩ := mapRead_ok h; subst tag; exact ⟨rfl, by decide⟩)
    | cases h

/-! ## C09 -/

/-- C09: the version in a written file is that of the value. -/
theorem C09_version_written (s : Ssbh) (bytes : Bytes) (h : s.write = .ok bytes) :
    (UInt16.ofNat (fromLe ((bytes.drop 20).take 2)), UInt16.ofNat (fromLe ((bytes.drop 22).take 2))) =
      versionOf s :=
  (C08_read_checks _ _ (C01_ssbh_round_trip _ _ h)).2.2.2.2.symm

/-- C09: the value read from any input has the version stored there. -/
theorem C09_version_read (b : Bytes) (s : Ssbh) (h : Ssbh.read b = .ok s) :
    versionOf s = (UInt16.ofNat (fromLe ((b.drop 20).take 2)), UInt16.ofNat (fromLe ((b.drop 22).take 2))) :=
  (C08_read_checks _ _ h).2.2.2.2

/-! ## C16 -/

theorem toBytes_length {f : Format α} [LawFormat f] {v : α} {bytes : Bytes} (h : f.toBytes v = .ok bytes) :
    f.alignAfter v ∣ bytes.length := by
  obtain ⟨w, _, rfl⟩ := Format.toBytes_ok h
  have h1 := le_roundUp (v := w.buf.length) (LawFormat.align (f := f) v)
  rw [List.length_append, List.length_replicate, Nat.add_sub_cancel' h1]
  exact dvd_roundUp _ _

/-- C16 for Mesh files of all versions. -/
theorem C16_mesh_padding (v : Mesh) (bytes : Bytes) (h : writeAs v = .ok bytes) : bytes.length % 8 = 0 := by
  have : Mesh.format.alignAfter v = 8 := by cases v <;> rfl
  exact Nat.mod_eq_zero_of_dvd (this ▸ toBytes_length h)

/-- C16 for Anim 2.1. -/
theorem C16_anim_padding (v : Anim.V21Data) (bytes : Bytes) (h : writeAs (Anim.V21 v) = .ok bytes) :
    bytes.length % 8 = 0 :=
  Nat.mod_eq_zero_of_dvd (toBytes_length (f := Anim.format) h)

example : ∃ bytes, exMesh.write = .ok bytes := exMesh_write

end Verif.Props
