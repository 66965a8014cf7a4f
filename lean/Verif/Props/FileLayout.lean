import Verif.Layout.FormatLaws
import Verif.Layout.Files
import Verif.Props.Files
import Verif.Props.PlainFiles
/-!
# C65: where each field is in a file

`Layout/Formats.lean` and `Layout/Files.lean` say for each type at which distance from its start each field is, and how
pointers, texts, lists and versions are stored. A reader returns a value exactly if it is stored in this way, and a written
file is laid out in this way.
-/

namespace Verif.Props
open Verif Layout

/-! ## The ten formats -/

theorem readAs_lays {α : Type} [t : SsbhType α] [l : LawSsbh α] [h : LaysFile α] (b : Bytes) (v : α) :
    Ssbh.read b = .ok (t.inj v) ↔ h.fileAt b v := by
  rw [← h.read, Ssbh.read_eq]
  constructor
  · intro hr
    split at hr
    · cases hr
    · rename_i m hm
      obtain ⟨rfl, hv⟩ := l.readData_inv _ _ _ hr
      exact ⟨hm, hv⟩
  · rintro ⟨h1, h2⟩
    simp only [h1, l.readData, h2]
    rfl

/-- C65: reading gives `s` exactly if `s` is stored in the file according to the layout of its format. -/
theorem C65_read (b : Bytes) (s : Ssbh) : Ssbh.read b = .ok s ↔ Ssbh.FileAt b s := by
  cases s with
  | Hlpb v => exact readAs_lays b v
  | Matl v => exact readAs_lays b v
  | Modl v => exact readAs_lays b v
  | Mesh v => exact readAs_lays b v
  | Skel v => exact readAs_lays b v
  | Anim v => exact readAs_lays b v
  | Nlst v => exact readAs_lays b v
  | Nrpd v => exact readAs_lays b v
  | Nufx v => exact readAs_lays b v
  | Shdr v => exact readAs_lays b v

/-- C65 for the readers of the ten types. -/
theorem C65_read_type {α : Type} [t : SsbhType α] [l : LawSsbh α] (b : Bytes) (v : α) :
    readAs α b = .ok v ↔ Ssbh.FileAt b (t.inj v) := by
  rw [← C65_read]
  constructor
  · exact fun h => (C08_foreign_rejected b v h).1
  · intro h
    simp only [readAs, h, l.proj]

/-- C65: no file holds two values. -/
theorem C65_unique (b : Bytes) (s t : Ssbh) (h1 : Ssbh.FileAt b s) (h2 : Ssbh.FileAt b t) : s = t := by
  rw [← C65_read] at h1 h2
  rw [h1] at h2
  cases h2
  rfl

/-- C65: a file without a value according to the layouts is an error. -/
theorem C65_rejects (b : Bytes) (h : ∀ s, ¬Ssbh.FileAt b s) : ∃ e, Ssbh.read b = .error e := by
  cases hr : Ssbh.read b with
  | error e => exact ⟨e, rfl⟩
  | ok s => exact absurd ((C65_read b s).mp hr) (h s)

theorem hasAt_numAt {b : Bytes} {p n x : Nat} (hx : x < 256 ^ n) (h : HasAt b p (leBytes n x)) : NumAt n b p x := by
  refine ⟨hx, fun i hi => ?_⟩
  rw [← leBytes_get n x i hi, h i (by rwa [leBytes_length]), List.getElem?_eq_getElem]

theorem header_written {f : Format α} [hf : LawFormat f] {v : α} {bytes : Bytes} (h : f.toBytes v = .ok bytes) :
    NumAt 8 bytes 4 64 ∧ NumAt 4 bytes 12 0 := by
  obtain ⟨w, hw, hbytes⟩ := Format.toBytes_ok h
  obtain ⟨N, hs, p, hr⟩ := hf.body hw
  have hall : HasAll bytes (N ++ headerEvents f.magic (f.version v).1 (f.version v).2) := by
    rw [hbytes]
    have := render_hasAll hs.disj
    have hlog : w.buf = render (N ++ headerEvents f.magic (f.version v).1 (f.version v).2) := by
      rw [W.buf, hs.log]; simp
    rw [← hlog] at this
    exact this.append
  have h4 : HasAt bytes 4 (leBytes 8 64) := hall.right _ _ (by simp [headerEvents])
  have h12 : HasAt bytes 12 (leBytes 4 0) := hall.right _ _ (by simp [headerEvents])
  exact ⟨hasAt_numAt (by decide) h4, hasAt_numAt (by decide) h12⟩

/-- C65: a written file follows the layout; bytes 4 to 11 are the number 64 and bytes 12 to 15 are zero. -/
theorem C65_written (s : Ssbh) (bytes : Bytes) (h : s.write = .ok bytes) :
    Ssbh.FileAt bytes s ∧ NumAt 8 bytes 4 64 ∧ NumAt 4 bytes 12 0 := by
  refine ⟨(C65_read _ _).mp (C01_ssbh_round_trip s bytes h), ?_⟩
  obtain ⟨α, t, l, v, rfl⟩ := s.exists_type
  have := l.law
  refine header_written (f := t.format) (v := v) ?_
  rw [← h]
  simp only [Ssbh.write, l.write, Format.toBytes]
  rfl

/-- The layout of Modl files, spelled out. -/
theorem C65_modl (b : Bytes) (v : Modl.V17Data) : Ssbh.read b = .ok (.Modl (.V17 v)) ↔
    BytesAt b 0 (ascii "HBSS") ∧ BytesAt b 16 (ascii "LDOM") ∧ NumAt 2 b 20 1 ∧ NumAt 2 b 22 7 ∧
    PointerAt TextAt b 24 v.model_name ∧ PointerAt TextAt b 32 v.skeleton_file_name ∧
    (∃ d, NumAt 8 b 40 d ∧ NumAt 8 b 48 v.material_file_names.length ∧ 40 + d < 2 ^ 64 ∧
      ∀ i (h : i < v.material_file_names.length), PointerAt TextAt b (40 + d + i * 8) v.material_file_names[i]) ∧
    PointerAt (PointerAt TextAt) b 56 v.animation_file_name ∧ PointerAt TextAt b 64 v.mesh_file_name ∧
    ∃ d, NumAt 8 b 72 d ∧ NumAt 8 b 80 v.entries.length ∧ 72 + d < 2 ^ 64 ∧
      ∀ i (h : i < v.entries.length), PointerAt TextAt b (72 + d + i * 24) v.entries[i].mesh_object_name ∧
        NumAt 8 b (72 + d + i * 24 + 8) v.entries[i].mesh_object_subindex.toNat ∧
        PointerAt TextAt b (72 + d + i * 24 + 16) v.entries[i].material_label :=
  C65_read b (.Modl (.V17 v))

/-- There are files which meet the hypotheses. -/
example : ∃ bytes, exModl.write = .ok bytes ∧ Ssbh.FileAt bytes exModl :=
  let ⟨b, h⟩ := exModl_write; ⟨b, h, (C65_written _ _ h).1⟩

example : ∃ bytes, exMesh.write = .ok bytes ∧ Ssbh.FileAt bytes exMesh :=
  let ⟨b, h⟩ := exMesh_write; ⟨b, h, (C65_written _ _ h).1⟩

example : ∀ s, ¬Ssbh.FileAt [1, 2, 3] s := by
  intro s h
  rw [← C65_read] at h
  cases h

/-! ## MeshEx -/

instance : Lays MeshEx.MeshEntry.codec MeshEx.MeshEntry.layout := by
  unfold MeshEx.MeshEntry.codec; exact record_lays (fun _ => rfl) rfl (fun _ _ _ => Iff.rfl)

instance : Lays MeshEx.AllData.codec MeshEx.AllData.layout := by
  unfold MeshEx.AllData.codec; exact record_lays (fun _ => rfl) rfl (fun _ _ _ => Iff.rfl)

instance : Lays MeshEx.MeshObjectGroup.codec MeshEx.MeshObjectGroup.layout := by
  unfold MeshEx.MeshObjectGroup.codec; exact record_lays (fun _ => rfl) rfl (fun _ _ _ => Iff.rfl)

instance (n : Nat) : LaysV (MeshEx.flagsCodec n) (ManyAt n Layout.u16) where
  read := (inferInstance : LaysV (vecN n bitfield16) _).read

theorem meshEx_rest (n m : Nat) : Lays (MeshEx.rest n m) ⟨36, fun b p v =>
    (absolute MeshEx.AllData.layout.stored).stored b p v.1 ∧
    (absolute (ManyAt m MeshEx.MeshObjectGroup.layout)).stored b (p + 8) v.2.1 ∧
    (absolute (ManyAt n MeshEx.MeshEntry.layout)).stored b (p + 16) v.2.2.1 ∧
    (absolute (ManyAt n Layout.u16)).stored b (p + 24) v.2.2.2.1 ∧ Layout.u32.stored b (p + 32) v.2.2.2.2⟩ := by
  unfold MeshEx.rest
  exact Lays.of rfl (fun _ _ _ => Iff.rfl)

/-- C65 for MeshEx files. -/
theorem C65_meshex (b : Bytes) (v : MeshEx) : MeshEx.read b = .ok v ↔ MeshEx.FileAt b v := by
  have head : ∀ x q, (pair Verif.u64 (pair Verif.u32 Verif.u32)).read b 0 = .ok (x, q) ↔
      (NumAt 8 b 0 x.1.toNat ∧ NumAt 4 b 8 x.2.1.toNat ∧ NumAt 4 b 12 x.2.2.toNat) ∧ q = 16 := fun x q =>
    (inferInstance : Lays (pair Verif.u64 (pair Verif.u32 Verif.u32)) _).read b 0 x q
  constructor
  · intro h
    simp only [MeshEx.read] at h
    split at h
    · cases h
    rename_i l ec gc p hh
    split at h
    · cases h
    rename_i a g e f u q hr
    cases h
    obtain ⟨⟨h1, h2, h3⟩, rfl⟩ := (head _ _).mp hh
    obtain ⟨hr, _⟩ := ((meshEx_rest _ _).read _ _ _ _).mp hr
    exact ⟨⟨_, h1⟩, _, _, h2, h3, hr⟩
  · rintro ⟨⟨l, h1⟩, ec, gc, h2, h3, hr⟩
    have e1 : (UInt64.ofNat l).toNat = l := by have := h1.1; simp; omega
    have e2 : (UInt32.ofNat ec).toNat = ec := by have := h2.1; simp; omega
    have e3 : (UInt32.ofNat gc).toNat = gc := by have := h3.1; simp; omega
    have hh := (head (UInt64.ofNat l, UInt32.ofNat ec, UInt32.ofNat gc) 16).mpr
      ⟨⟨by rwa [e1], by rwa [e2], by rwa [e3]⟩, rfl⟩
    have hq := ((meshEx_rest ec gc).read b 16 (v.all_data, v.mesh_object_groups, v.entries, v.entry_flags, v.unk1) 52).mpr
      ⟨hr, rfl⟩
    simp only [MeshEx.read, hh, e2, e3, hq]

/-- C65: a written MeshEx file follows the layout, and starts with its own length. -/
theorem C65_meshex_written (v : MeshEx) (bytes : Bytes) (h : v.write = .ok bytes) (h1 : countOf v.entries < 2 ^ 32)
    (h2 : countOf v.entry_flags < 2 ^ 32) (h3 : countOf v.mesh_object_groups < 2 ^ 32) :
    MeshEx.FileAt bytes v ∧ NumAt 8 bytes 0 bytes.length := by
  obtain ⟨_, hl, hr⟩ := C15_meshex_file v bytes h h1 h2 h3
  refine ⟨(C65_meshex _ _).mp hr, ?_⟩
  simp only [numAt] at hl
  split at hl
  · rename_i hn
    rw [numAt_iff (by decide)]
    exact ⟨by omega, by simpa using hl.symm⟩
  · cases hl

example : ∃ bytes, exMeshEx.write = .ok bytes ∧ MeshEx.FileAt bytes exMeshEx := by
  obtain ⟨b, h⟩ := isOk_iff.mp (show isOk exMeshEx.write = true by decide +kernel)
  exact ⟨b, h, (C65_meshex_written _ _ h (by decide) (by decide) (by decide)).1⟩

/-! ## Adj -/

instance : Lays Adj.AdjEntry.codec Adj.AdjEntry.layout := by
  unfold Adj.AdjEntry.codec; exact record_lays (fun _ => rfl) rfl (fun _ _ _ => Iff.rfl)

theorem readI16s_drop (b : Bytes) (p : Nat) : Adj.readI16s (b.drop p) =
    match i16.read b p with
    | .ok (x, q) => x :: Adj.readI16s (b.drop q)
    | .error _ => [] := by
  simp only [i16, prim, readLe, readBytes]
  by_cases h : 2 ≤ b.length - p
  · rw [if_pos h]
    have e : b.drop p = b[p] :: b[p + 1] :: b.drop (p + 2) := by
      rw [List.drop_eq_getElem_cons (show p < b.length by omega), List.drop_eq_getElem_cons (show p + 1 < b.length by omega)]
    have t : (b.drop p).take 2 = [b[p], b[p + 1]] := by rw [e]; rfl
    rw [t, e]
    rfl
  · rw [if_neg h]
    have hl : (b.drop p).length < 2 := by simp; omega
    match hd : b.drop p, hl with
    | [], _ => rfl
    | [_], _ => rfl
    | _ :: _ :: _, hl => exact absurd hl (by simp)

theorem readI16s_iff (b : Bytes) : ∀ (v : List Int16) (p : Nat), Adj.readI16s (b.drop p) = v ↔
    (b.length - p) / 2 = v.length ∧ ∀ i (h : i < v.length), Layout.i16.stored b (p + i * 2) v[i]
  | v, p => by
    rw [readI16s_drop]
    cases hr : i16.read b p with
    | error e =>
      have hn : ¬2 ≤ b.length - p := by
        intro hn
        simp [i16, prim, readLe, readBytes, hn] at hr
      constructor
      · rintro rfl
        exact ⟨by simp; omega, fun i h => absurd h (Nat.not_lt_zero _)⟩
      · rintro ⟨h, _⟩
        exact (List.length_eq_zero_iff.mp (by omega)).symm
    | ok r =>
      obtain ⟨x, q⟩ := r
      obtain ⟨hx, rfl⟩ := ((inferInstance : Lays i16 Layout.i16).read _ _ _ _).mp hr
      have hn : 2 ≤ b.length - p := ((numAt_iff (by decide)).mp hx).1
      cases v with
      | nil =>
        simp only [List.length_nil]
        constructor
        · intro h; cases h
        · rintro ⟨h, _⟩; omega
      | cons y v =>
        simp only [List.cons.injEq]
        rw [readI16s_iff b v (p + Layout.i16.size)]
        have e : Layout.i16.size = 2 := rfl
        rw [e]
        constructor
        · rintro ⟨rfl, h1, h2⟩
          refine ⟨by simp; omega, ?_⟩
          intro i hi
          cases i with
          | zero => simpa using hx
          | succ i =>
            have := h2 i (by simpa using hi)
            rw [List.getElem_cons_succ, Nat.succ_mul]
            rwa [show p + (i * 2 + 2) = p + 2 + i * 2 by omega]
        · rintro ⟨h1, h2⟩
          have h0 := h2 0 (by simp)
          simp only [Nat.zero_mul, Nat.add_zero, List.getElem_cons_zero] at h0
          have hy := ((inferInstance : Lays i16 Layout.i16).read b p y _).mpr ⟨h0, rfl⟩
          rw [hr] at hy
          cases hy
          refine ⟨rfl, by simp at h1; omega, ?_⟩
          intro i hi
          have := h2 (i + 1) (by simpa using hi)
          rw [List.getElem_cons_succ, Nat.succ_mul] at this
          rwa [show p + 2 + i * 2 = p + (i * 2 + 2) by omega]

/-- C65 for Adj files. -/
theorem C65_adj (b : Bytes) (v : Adj) : Adj.read b = .ok v ↔ Adj.FileAt b v := by
  have count : ∀ x q, Verif.u32.read b 0 = .ok (x, q) ↔ NumAt 4 b 0 x.toNat ∧ q = 4 := fun x q =>
    (inferInstance : Lays Verif.u32 _).read b 0 x q
  have elems := fun n vs q => readElems_lays (c := Adj.AdjEntry.codec) b n 4 vs q
  constructor
  · intro h
    simp only [Adj.read] at h
    split at h
    · cases h
    rename_i n p hn
    replace hn := (count _ _).mp hn
    obtain ⟨hn, rfl⟩ := hn
    split at h
    · cases h
    rename_i es q he
    cases h
    obtain ⟨⟨h1, h2⟩, rfl⟩ := (elems _ _ _).mp he
    obtain ⟨h3, h4⟩ := (readI16s_iff b (Adj.readI16s (b.drop (4 + n.toNat * 8))) (4 + n.toNat * 8)).mp rfl
    rw [← h1] at hn
    refine ⟨hn, h2, ?_, ?_⟩
    · show (b.length - (4 + es.length * 8)) / 2 = _
      rw [h1]
      exact h3
    · show ∀ i h, Layout.i16.stored b (4 + es.length * 8 + i * 2) _
      rw [h1]
      exact h4
  · rintro ⟨h1, h2, h3, h4⟩
    have e : (UInt32.ofNat v.entries.length).toNat = v.entries.length := by have := h1.1; simp; omega
    simp only [Adj.read, (count (UInt32.ofNat v.entries.length) 4).mpr ⟨by rwa [e], rfl⟩, e]
    rw [(elems v.entries.length v.entries _).mpr ⟨⟨rfl, h2⟩, rfl⟩]
    have := (readI16s_iff b _ _).mpr ⟨h3, h4⟩
    show Except.ok (⟨v.entries, Adj.readI16s (b.drop (4 + v.entries.length * 8))⟩ : Adj) = _
    rw [this]

/-- C65: a written Adj file follows the layout, and nothing follows the last number. -/
theorem C65_adj_written (v : Adj) (hlen : v.entries.length < 2 ^ 32) (bytes : Bytes) (h : v.write = .ok bytes) :
    Adj.FileAt bytes v ∧ bytes.length = 4 + v.entries.length * 8 + v.index_buffer.length * 2 := by
  refine ⟨(C65_adj _ _).mp (C17_adj_round_trip v hlen bytes h), ?_⟩
  rw [C17_adj_written] at h
  cases h
  have h1 : ∀ es : List Adj.AdjEntry, (es.flatMap (fun e => leBytes 4 e.mesh_object_index.toNat ++
      leBytes 4 e.index_buffer_offset.toNat)).length = es.length * 8 := by
    intro es
    induction es with
    | nil => rfl
    | cons e es ih => rw [List.flatMap_cons, List.length_append, ih]; simp [leBytes_length]; omega
  have h2 : ∀ is : List Int16, (is.flatMap (fun i => leBytes 2 i.toUInt16.toNat)).length = is.length * 2 := by
    intro is
    induction is with
    | nil => rfl
    | cons e es ih => rw [List.flatMap_cons, List.length_append, ih]; simp [leBytes_length]; omega
  simp only [adjBytes, List.length_append, leBytes_length, h1, h2]
  omega

example : Adj.FileAt [1, 0, 0, 0, 3, 0, 0, 0, 0, 0, 0, 0, 5, 0, 255, 255, 9] ⟨[⟨3, 0⟩], [5, -1]⟩ :=
  (C65_adj _ _).mp rfl

end Verif.Props
