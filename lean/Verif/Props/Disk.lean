import Verif.Tools.Disk
import Verif.Props.JsonData
import Verif.Props.Documents
import Mathlib.Data.List.TakeWhile
/-!
# C74: files on a disk

`from_file` and `write_to_file`, and the programs ssbh_lib_json and ssbh_data_json.
-/

namespace Verif.Props

open Verif

/-- The file has this content, and all other files are as before. -/
structure Holds (d d' : Disk) (p : Path) (b : Bytes) : Prop where
  content : d'.files p = some b
  others : ∀ q, q ≠ p → d'.files q = d.files q
  rights : d'.mayCreate = d.mayCreate

theorem holds_set (d : Disk) (p : Path) (b : Bytes) : Holds d (d.set p b) p b :=
  ⟨by simp [Disk.set], fun q hq => by simp [Disk.set, hq], rfl⟩

theorem holds_set_set (d : Disk) (p : Path) (b b' : Bytes) : Holds d ((d.set p b).set p b') p b' :=
  ⟨by simp [Disk.set], fun q hq => by simp [Disk.set, hq], rfl⟩

/-! ## Names -/

theorem splitDot_append {a e : List Char} (he : '.' ∉ e) : Path.splitDot (a ++ '.' :: e) = some (a, e) := by
  have h : ∀ x ∈ e.reverse, (decide (x ≠ '.')) = true := by
    intro x hx
    simp only [decide_eq_true_eq]
    rintro rfl
    exact he (by simpa using hx)
  have hr : (a ++ '.' :: e).reverse = e.reverse ++ '.' :: a.reverse := by simp
  rw [Path.splitDot, if_pos (by simp), hr, List.dropWhile_append_of_pos h, List.takeWhile_append_of_pos h]
  simp

theorem splitDot_some {n a e : List Char} (h : Path.splitDot n = some (a, e)) : n = a ++ '.' :: e ∧ '.' ∉ e := by
  unfold Path.splitDot at h
  split at h
  · rename_i hm
    simp only [Option.some.injEq, Prod.mk.injEq] at h
    obtain ⟨rfl, rfl⟩ := h
    have ht := List.takeWhile_append_dropWhile (p := fun x => decide (x ≠ '.')) (l := n.reverse)
    have hn : n.reverse.dropWhile (fun x => decide (x ≠ '.')) ≠ [] := by
      intro h0
      rw [List.dropWhile_eq_nil_iff] at h0
      have := h0 '.' (by simpa using hm)
      simp at this
    obtain ⟨c, r, hc⟩ := List.exists_cons_of_ne_nil hn
    have hd : c = '.' := by
      have := List.head_dropWhile_not (fun x => decide (x ≠ '.')) (l := n.reverse) hn
      simp only [hc, List.head_cons, decide_eq_false_iff_not, ne_eq, not_not] at this
      exact this
    subst hd
    constructor
    · have : n = (n.reverse.takeWhile (fun x => decide (x ≠ '.')) ++ n.reverse.dropWhile (fun x => decide (x ≠ '.'))).reverse := by
        rw [ht, List.reverse_reverse]
      rw [hc] at this ⊢
      conv => lhs; rw [this]
      simp
    · intro hm2
      have := List.mem_takeWhile_imp (List.mem_reverse.mp hm2)
      simp at this
  · cases h

/-- C74: the extension of a name is what follows the last dot, if something precedes this dot. -/
theorem C74_extension_of (p : Path) (e : String) : p.extension = some e ↔
    ∃ base : List Char, base ≠ [] ∧ '.' ∉ e.toList ∧ p.name = base ++ '.' :: e.toList := by
  unfold Path.extension
  constructor
  · intro h
    cases hs : Path.splitDot p.name with
    | none => rw [hs] at h; cases h
    | some r =>
      obtain ⟨a, b⟩ := r
      rw [hs] at h
      simp only at h
      split at h
      · cases h
      · rename_i ha
        cases h
        obtain ⟨h1, h2⟩ := splitDot_some hs
        exact ⟨a, ha, by simpa using h2, by simpa using h1⟩
  · rintro ⟨base, hb, hd, hn⟩
    rw [hn, splitDot_append hd]
    simp [hb]

/-- C74: another extension instead of the last one. -/
theorem C74_with_extension (p : Path) (base : List Char) (e e' : String) (hb : base ≠ []) (hd : '.' ∉ e.toList)
    (hn : p.name = base ++ '.' :: e.toList) : p.withExtension e' = ⟨p.folder, base ++ '.' :: e'.toList⟩ := by
  rw [Path.withExtension, hn, splitDot_append hd]
  simp [hb]

example : (Path.mk "fighter".toList "model.numdlb.json".toList).extension = some "json" ∧
    (Path.mk "fighter".toList "model.numdlb.json".toList).withExtension "numdlb" =
      ⟨"fighter".toList, "model.numdlb.numdlb".toList⟩ ∧
    (Path.mk "fighter".toList ".json".toList).extension = none := by decide

/-! ## Saving and opening -/

/-- C74: if the bytes of a value exist and the file may be created, saving succeeds. The file then consists of exactly these
bytes whatever it was before, all other files are as before, and opening it gives the value. -/
theorem C74_save (f : JsonFile) (b : Bytes) (p : Path) (d : Disk) (hw : f.write = some b) (hm : d.mayCreate p = true) :
    ∃ d', f.writeToFile p d = (true, d') ∧ Holds d d' p b ∧
      (Counted f → JsonFile.fromFile f.extension p d' = some f) := by
  refine ⟨(d.set p []).set p b, ?_, holds_set_set d p [] b, fun hc => ?_⟩
  · simp [JsonFile.writeToFile, Disk.create, hm, hw]
  · rw [JsonFile.fromFile, (holds_set_set d p [] b).content]
    simp only [read_written f b hc hw]

/-- C74: saving succeeds in no other way. -/
theorem C74_saved (f : JsonFile) (p : Path) (d d' : Disk) (h : f.writeToFile p d = (true, d')) :
    ∃ b, f.write = some b ∧ Holds d d' p b := by
  unfold JsonFile.writeToFile Disk.create at h
  split at h
  · cases h
  · rename_i d1 hd
    split at hd
    · cases hd
      split at h
      · cases h
      · rename_i b hb
        cases h
        exact ⟨b, hb, holds_set_set d p [] b⟩
    · cases hd

/-- C74: if saving fails, either nothing has changed, or the value cannot be written and the file is now empty. -/
theorem C74_failed (f : JsonFile) (p : Path) (d d' : Disk) (h : f.writeToFile p d = (false, d')) :
    (d.mayCreate p = false ∧ d' = d) ∨ (f.write = none ∧ Holds d d' p []) := by
  unfold JsonFile.writeToFile Disk.create at h
  split at h
  · rename_i hd
    cases h
    split at hd
    · cases hd
    · rename_i hm
      exact .inl ⟨by simpa using hm, rfl⟩
  · rename_i d1 hd
    split at hd
    · cases hd
      split at h
      · rename_i hb
        cases h
        exact .inr ⟨hb, holds_set d p []⟩
      · cases h
    · cases hd

/-- C74 for one type: a saved value is in the file and is opened again, and no other file is touched. -/
theorem C74_save_as {α : Type} [SsbhType α] [LawSsbh α] (v : α) (b : Bytes) (p : Path) (d : Disk) (hw : writeAs v = .ok b)
    (hm : d.mayCreate p = true) :
    ∃ d', writeToFileAs v p d = (true, d') ∧ Holds d d' p b ∧ fromFileAs α p d' = some v := by
  refine ⟨(d.set p []).set p b, ?_, holds_set_set d p [] b, ?_⟩
  · simp [writeToFileAs, Disk.create, hm, hw]
  · rw [fromFileAs, (holds_set_set d p [] b).content]
    simp only [C01_format_round_trip v b hw]

/-- A file which is there before, is replaced by a shorter one, and one beside it. -/
def exDisk : Disk where
  files q :=
    if q = ⟨"a".toList, "model.numdlb".toList⟩ then some (List.replicate 1000 7)
    else if q = ⟨"a".toList, "other".toList⟩ then some [1, 2] else none
  mayCreate q := q.folder = "a".toList

example : ∃ d' b, (JsonFile.ssbh exModl).writeToFile ⟨"a".toList, "model.numdlb".toList⟩ exDisk = (true, d') ∧
    d'.files ⟨"a".toList, "model.numdlb".toList⟩ = some b ∧ b.length < 1000 ∧
    d'.files ⟨"a".toList, "other".toList⟩ = some [1, 2] ∧
    JsonFile.fromFile "numdlb" ⟨"a".toList, "model.numdlb".toList⟩ d' = some (.ssbh exModl) := by
  have hb : ((JsonFile.ssbh exModl).write.any fun b => b.length < 1000) = true := by decide +kernel
  cases hw : (JsonFile.ssbh exModl).write with
  | none => rw [hw] at hb; cases hb
  | some b =>
    rw [hw] at hb
    obtain ⟨d', h1, h2, h3⟩ := C74_save _ b ⟨"a".toList, "model.numdlb".toList⟩ exDisk hw (by decide)
    refine ⟨d', b, h1, h2.content, by simpa using hb, ?_, h3 trivial⟩
    rw [h2.others _ (by decide)]
    decide

/-- C74: a MeshEx value with different numbers of entries and flags is rejected only after the file has been emptied: whatever
the file was, it is lost. -/
theorem C74_meshex_emptied (v : MeshEx) (p : Path) (d : Disk) (h1 : countOf v.entries < 2 ^ 32)
    (h2 : countOf v.entry_flags < 2 ^ 32) (h : countOf v.entries ≠ countOf v.entry_flags) (hm : d.mayCreate p = true) :
    ∃ d', (JsonFile.meshEx v).writeToFile p d = (false, d') ∧ Holds d d' p [] := by
  refine ⟨d.set p [], ?_, holds_set d p []⟩
  simp [JsonFile.writeToFile, Disk.create, hm, JsonFile.write, MeshEx.write, C15_meshex_counts v _ h1 h2 h]

/-- Ten bytes are lost. -/
example : ∃ (v : MeshEx) (d d' : Disk) (p : Path), d.files p = some (List.replicate 10 1) ∧
    (JsonFile.meshEx v).writeToFile p d = (false, d') ∧ d'.files p = some [] := by
  obtain ⟨d', h, hd⟩ := C74_meshex_emptied { exMeshEx with entry_flags := some [3] } ⟨[], ['a']⟩
    ⟨fun _ => some (List.replicate 10 1), fun _ => true⟩ (by decide) (by decide) (by decide) rfl
  exact ⟨_, _, d', _, rfl, h, hd.content⟩

/-! ## Saving data -/

/-- The only errors are places in the file which do not fit in 64 bits. -/
def NoRoom (e : WErr) : Prop := e = .overflow ∨ e = .ptrTooLarge

def OnlyNoRoom (c : Codec α) : Prop := ∀ v w e, c.write v w = .error e → NoRoom e

theorem OnlyOverflow.large {c : Codec α} (h : OnlyOverflow c) : OnlyNoRoom c := fun v w e he => .inl (h v w e he)

theorem OnlyNoRoom.pair {a : Codec α} {b : Codec β} (ha : OnlyNoRoom a) (hb : OnlyNoRoom b) : OnlyNoRoom (pair a b) := by
  intro v w e h
  simp only [Verif.pair] at h
  split at h
  · exact hb _ _ _ h
  · rename_i e' h'
    cases h
    exact ha _ _ _ h'

theorem OnlyNoRoom.absPtr {a : Codec α} (ha : OnlyNoRoom a) : OnlyNoRoom (absPtr n a) := by
  intro v w e h
  cases v with
  | none => simp [Verif.absPtr] at h
  | some v =>
    simp only [Verif.absPtr] at h
    split at h
    · split at h
      · rename_i e' h'
        cases h
        exact ha _ _ _ h'
      · cases h
    · cases h
      exact .inr rfl

theorem OnlyNoRoom.vecN {a : Codec α} (ha : OnlyNoRoom a) : OnlyNoRoom (vecN n a) := by
  intro v w e h
  replace h : writeElems a v (w.bump (sliceSize a v)) = .error e := h
  generalize w.bump (sliceSize a v) = w at h
  induction v generalizing w with
  | nil => simp [writeElems] at h
  | cons x v ih =>
    simp only [writeElems] at h
    split at h
    · exact ih _ h
    · rename_i e' h'
      cases h
      exact ha _ _ _ h'

theorem OnlyNoRoom.struct {a : Codec α} (ha : OnlyNoRoom a) : OnlyNoRoom (struct n a) := fun v w e h => ha v _ e h

theorem OnlyNoRoom.cstring : OnlyNoRoom (cstring n) := by
  intro v w e h
  simp only [Verif.cstring] at h
  split at h <;> cases h

theorem meshEx_large (v : MeshEx) (hc : MeshEx.len32 v.entries = MeshEx.len32 v.entry_flags) {e : WErr} {w : Option W}
    (h : v.write = .error (e, w)) : NoRoom e := by
  have hp : OnlyNoRoom (pair u32 (pair u32 (MeshEx.rest 0 0))) := by
    have hu : OnlyNoRoom u32 := OnlyOverflow.large LawC.total
    have hs : OnlyNoRoom Mesh.BoundingSphere.codec := OnlyOverflow.large LawF.total
    have he : OnlyNoRoom MeshEx.MeshEntry.codec := OnlyOverflow.large LawC.total
    have ha : OnlyNoRoom MeshEx.AllData.codec :=
      fun v w e h => (hs.pair (OnlyNoRoom.cstring.absPtr (n := 8))) _ _ e h
    have hg : OnlyNoRoom MeshEx.MeshObjectGroup.codec :=
      fun v w e h => (hs.pair ((OnlyNoRoom.cstring.absPtr (n := 8)).pair (OnlyNoRoom.cstring.absPtr (n := 8)))) _ _ e h
    have hf : OnlyNoRoom (MeshEx.flagsCodec 0) := (OnlyNoRoom.vecN (OnlyOverflow.large LawC.total)).struct
    exact hu.pair (hu.pair (ha.absPtr.pair (hg.vecN.absPtr.pair (he.vecN.absPtr.pair (hf.absPtr.pair hu)))))
  rw [MeshEx.write, MeshEx.ssbhWrite] at h
  simp only [hc, ne_eq, not_true_eq_false, if_false] at h
  split at h
  · rename_i e' h'
    cases h
    split at h'
    · rename_i e2 h2
      cases h'
      exact hp _ _ _ h2
    · split at h'
      · cases h'
      · cases h'; exact .inl rfl
  · cases h

theorem writeAs_large {α : Type} [SsbhType α] [l : LawSsbh α] (v : α) {e : WErr} (h : writeAs v = .error e) : NoRoom e := by
  refine .inl (C01_write_total (SsbhType.inj v) e ?_)
  simp only [Ssbh.write, LawSsbh.write]
  exact h

/-- C74: saving data is conversion and then saving the file. -/
theorem save_convert (O : DataOps) (f : DataFile) :
    (f.convert O = none ∧ f.save O = .error .convert) ∨
    (∃ g b, f.convert O = some g ∧ g.write = some b ∧ f.save O = .ok b ∧ g.extension = f.extension) ∨
    (∃ g e, f.convert O = some g ∧ g.write = none ∧ f.save O = .error (.write e) ∧ NoRoom e ∧ g.extension = f.extension) := by
  have key : ∀ {α : Type} [SsbhType α] [LawSsbh α] (m : α) (s : Ssbh), SsbhType.inj m = s → (JsonFile.ssbh s).extension = f.extension →
      f.convert O = some (.ssbh s) → f.save O = liftWrite (writeAs m) →
      (f.convert O = none ∧ f.save O = .error .convert) ∨
      (∃ g b, f.convert O = some g ∧ g.write = some b ∧ f.save O = .ok b ∧ g.extension = f.extension) ∨
      (∃ g e, f.convert O = some g ∧ g.write = none ∧ f.save O = .error (.write e) ∧ NoRoom e ∧ g.extension = f.extension) := by
    intro α t l m s hm hx hc hs
    subst hm
    have hw : (SsbhType.inj m).write = writeAs m := by
      simp only [Ssbh.write, LawSsbh.write]; rfl
    cases h : writeAs m with
    | ok b =>
      refine .inr (.inl ⟨_, b, hc, ?_, by rw [hs, h]; rfl, hx⟩)
      simp only [JsonFile.write, hw, h]
    | error e =>
      refine .inr (.inr ⟨_, e, hc, ?_, by rw [hs, h]; rfl, writeAs_large m h, hx⟩)
      simp only [JsonFile.write, hw, h]
  cases f with
  | mesh v =>
    cases hc : MeshData.toMesh O.conv O.bounds v with
    | error e => exact .inl ⟨by simp only [DataFile.convert, hc], by simp only [DataFile.save, MeshData.write, hc]⟩
    | ok m => exact key m _ rfl rfl (by simp only [DataFile.convert, hc]; rfl) (by simp only [DataFile.save, MeshData.write, hc])
  | skel v =>
    cases hc : v.toSkel O.matrices with
    | none => exact .inl ⟨by simp only [DataFile.convert, hc], by simp only [DataFile.save, SkelData.write, hc]⟩
    | some r =>
      cases r with
      | error e => exact .inl ⟨by simp only [DataFile.convert, hc], by simp only [DataFile.save, SkelData.write, hc]⟩
      | ok m => exact key m _ rfl rfl (by simp only [DataFile.convert, hc]; rfl) (by simp only [DataFile.save, SkelData.write, hc])
  | anim v =>
    cases hc : AnimData.create O.floats v with
    | error e => exact .inl ⟨by simp only [DataFile.convert, hc], by simp only [DataFile.save, AnimData.write, hc]⟩
    | ok m => exact key m _ rfl rfl (by simp only [DataFile.convert, hc]; rfl) (by simp only [DataFile.save, AnimData.write, hc])
  | modl v => exact key v.toModl _ rfl rfl rfl rfl
  | matl v =>
    cases hc : v.toMatl with
    | error e => exact .inl ⟨by simp only [DataFile.convert, hc], by simp only [DataFile.save, MatlData.write, hc]⟩
    | ok m => exact key m _ rfl rfl (by simp only [DataFile.convert, hc]; rfl) (by simp only [DataFile.save, MatlData.write, hc])
  | hlpb v => exact key v.toHlpb _ rfl rfl rfl rfl
  | meshEx v =>
    cases h : (v.toMeshEx O.sphereOf).write with
    | ok b =>
      exact .inr (.inl ⟨_, b, rfl, by simp only [JsonFile.write, h], by simp only [DataFile.save, MeshExData.write, h], rfl⟩)
    | error e =>
      obtain ⟨e, w⟩ := e
      refine .inr (.inr ⟨_, e, rfl, by simp only [JsonFile.write, h], by simp only [DataFile.save, MeshExData.write, h], ?_, rfl⟩)
      refine meshEx_large _ ?_ h
      simp only [MeshExData.toMeshEx, MeshEx.len32, List.length_flatMap, List.length_map]
      congr 2
      have := congrArg (List.map fun g => g.entry_flags.length) (List.zipIdx_map_fst 0 v.mesh_object_groups)
      rw [List.map_map] at this
      exact this
  | adj v =>
    exact .inr (.inl ⟨_, adjBytes v.toAdj, rfl, by simp only [JsonFile.write, C17_adj_written],
      by simp only [DataFile.save, AdjData.write, C17_adj_written, liftWrite], rfl⟩)

/-- C74: data which can be saved is saved to a file which consists of exactly its bytes; no other file is touched. -/
theorem C74_data_save (O : DataOps) (f : DataFile) (b : Bytes) (p : Path) (d : Disk) (hs : f.save O = .ok b)
    (hm : d.mayCreate p = true) : ∃ d', f.writeToFile O p d = (true, d') ∧ Holds d d' p b := by
  rcases save_convert O f with ⟨_, h2⟩ | ⟨g, b', h1, h2, h3, _⟩ | ⟨g, e, h1, h2, h3, _⟩
  · rw [h2] at hs; cases hs
  · rw [h3] at hs
    cases hs
    obtain ⟨d', hd, hh, _⟩ := C74_save g b p d h2 hm
    exact ⟨d', by rw [DataFile.writeToFile, h1]; exact hd, hh⟩
  · rw [h3] at hs; cases hs

/-- C74: if data cannot be converted, the file is not touched. Saving data empties the file only if a position does not fit in
64 bits. -/
theorem C74_data_failed (O : DataOps) (f : DataFile) (p : Path) (d d' : Disk) (h : f.writeToFile O p d = (false, d')) :
    ((d.mayCreate p = false ∨ f.save O = .error .convert) ∧ d' = d) ∨
    ((∃ e, f.save O = .error (.write e) ∧ NoRoom e) ∧ Holds d d' p []) := by
  rcases save_convert O f with ⟨h1, h2⟩ | ⟨g, b', h1, h2, h3, _⟩ | ⟨g, e, h1, h2, h3, h4, _⟩
  · rw [DataFile.writeToFile, h1] at h
    cases h
    exact .inl ⟨.inr h2, rfl⟩
  · rw [DataFile.writeToFile, h1] at h
    rcases C74_failed g p d d' h with ⟨hm, hd⟩ | ⟨hn, _⟩
    · exact .inl ⟨.inl hm, hd⟩
    · rw [h2] at hn; cases hn
  · rw [DataFile.writeToFile, h1] at h
    rcases C74_failed g p d d' h with ⟨hm, hd⟩ | ⟨_, hd⟩
    · exact .inl ⟨.inl hm, hd⟩
    · exact .inr ⟨⟨e, h3, h4⟩, hd⟩

/-- A material library of an unknown version: the file that is there stays. -/
example (O : DataOps) : ∃ d', (DataFile.matl ⟨1, 7, []⟩).writeToFile O ⟨"a".toList, "model.numdlb".toList⟩ exDisk = (false, d') ∧
    d'.files ⟨"a".toList, "model.numdlb".toList⟩ = some (List.replicate 1000 7) := ⟨exDisk, rfl, rfl⟩

/-- C74: data of a type is saved as a file of this type: ssbh_lib_json gives files of this type the extension under which
ssbh_data_json looks for the type. -/
theorem C74_extension (O : DataOps) (f : DataFile) (g : JsonFile) (h : f.convert O = some g) :
    g.extension = f.extension := by
  rcases save_convert O f with ⟨h1, _⟩ | ⟨g', b', h1, _, _, h4⟩ | ⟨g', e, h1, _, _, _, h4⟩
  · rw [h1] at h; cases h
  · rw [h1] at h; cases h; exact h4
  · rw [h1] at h; cases h; exact h4

/-! ## The programs -/

/-- What a run may write to: the output if it is given, otherwise a file in the folder of the input which is not the input. -/
def Output (input : Path) : Option Path → Path → Prop
  | some out, p => p = out
  | none, p => p ≠ input ∧ p.folder = input.folder

theorem append_json (p : Path) : p.append ".json" ≠ p ∧ (p.append ".json").folder = p.folder := by
  refine ⟨fun h => ?_, rfl⟩
  have := congrArg (fun q => q.name.length) h
  simp [Path.append] at this

theorem with_other (p : Path) {e e' : String} (h : p.extension = some e) (hne : e' ≠ e) :
    p.withExtension e' ≠ p ∧ (p.withExtension e').folder = p.folder := by
  obtain ⟨base, hb, hd, hn⟩ := (C74_extension_of p e).mp h
  rw [C74_with_extension p base e e' hb hd hn]
  refine ⟨fun he => ?_, rfl⟩
  have := congrArg Path.name he
  rw [hn] at this
  simp only [List.append_cancel_left_eq, List.cons.injEq, true_and] at this
  exact hne (String.toList_inj.mp this)

theorem lib_extension (f : JsonFile) : f.extension ≠ "json" ∧ '.' ∉ f.extension.toList := by
  cases f with
  | ssbh v => cases v <;> exact ⟨by simp [JsonFile.extension], by simp [JsonFile.extension]⟩
  | meshEx v => exact ⟨by simp [JsonFile.extension], by simp [JsonFile.extension]⟩
  | adj v => exact ⟨by simp [JsonFile.extension], by simp [JsonFile.extension]⟩

theorem data_extension (f : DataFile) : f.extension ≠ "json" ∧ '.' ∉ f.extension.toList := by
  cases f <;> exact ⟨by simp [DataFile.extension], by simp [DataFile.extension]⟩

theorem output_getD {i out : Path} {o : Option Path} (h : out ≠ i ∧ out.folder = i.folder) : Output i o (o.getD out) := by
  cases o with
  | none => exact h
  | some p => rfl

theorem writeToFile_rest (f : JsonFile) (p : Path) (d : Disk) {q : Path} (hq : q ≠ p) :
    (f.writeToFile p d).2.files q = d.files q := by
  cases h : f.writeToFile p d with
  | mk r d' =>
    cases r with
    | true => obtain ⟨b, _, hh⟩ := C74_saved f p d d' h; exact hh.others q hq
    | false =>
      rcases C74_failed f p d d' h with ⟨_, rfl⟩ | ⟨_, hh⟩
      · rfl
      · exact hh.others q hq

theorem writeJson_cases (T : JsonText) (j : J) (p : Path) (d : Disk) :
    (d.mayCreate p = true ∧ ∃ d', writeJson T j p d = (.done, d') ∧ Holds d d' p (textBytes (T.print j))) ∨
    (d.mayCreate p = false ∧ writeJson T j p d = (.panic, d)) := by
  unfold writeJson Disk.create
  cases hm : d.mayCreate p with
  | true => exact .inl ⟨rfl, _, rfl, holds_set_set d p [] _⟩
  | false => exact .inr ⟨rfl, rfl⟩

/-- C74: ssbh_lib_json with a file which is not JSON. The JSON of its value is written, or nothing is changed. -/
theorem C74_lib_show (T : JsonText) (i : Path) (o : Option Path) (d : Disk) (ext : String) (he : i.extension = some ext)
    (hj : ext ≠ "json") :
    (∃ f d', JsonFile.fromFile ext i d = some f ∧ libMain T i o d = (.done, d') ∧
      Holds d d' (o.getD (i.append ".json")) (textBytes (T.print f.toJson))) ∨
    (libMain T i o d = (.message, d) ∧ JsonFile.fromFile ext i d = none) ∨
    (libMain T i o d = (.panic, d) ∧ d.mayCreate (o.getD (i.append ".json")) = false) := by
  unfold libMain
  simp only [he, if_neg hj]
  cases hf : JsonFile.fromFile ext i d with
  | none => exact .inr (.inl ⟨rfl, rfl⟩)
  | some f =>
    rcases writeJson_cases T f.toJson (o.getD (i.append ".json")) d with ⟨_, d', h, hh⟩ | ⟨hm, h⟩
    · exact .inl ⟨f, d', rfl, h, hh⟩
    · exact .inr (.inr ⟨h, hm⟩)

/-- C74: ssbh_lib_json with a JSON file. The bytes of the value are written. Otherwise nothing is changed, or the output is
empty because the value has no bytes. -/
theorem C74_lib_back (T : JsonText) (i : Path) (o : Option Path) (d : Disk) (he : i.extension = some "json") :
    (∃ s j f b d', d.files i = some (textBytes s) ∧ T.parse s = some j ∧ JsonFile.fromJson j = some f ∧ f.write = some b ∧
      libMain T i o d = (.done, d') ∧ Holds d d' (o.getD (i.withExtension f.extension)) b) ∨
    (∃ x, x ≠ .done ∧ libMain T i o d = (x, d)) ∨
    (∃ s j f d', d.files i = some (textBytes s) ∧ T.parse s = some j ∧ JsonFile.fromJson j = some f ∧ f.write = none ∧
      libMain T i o d = (.panic, d') ∧ Holds d d' (o.getD (i.withExtension f.extension)) []) := by
  unfold libMain
  simp only [he, if_true]
  cases hf : d.files i with
  | none => exact .inr (.inl ⟨.panic, by decide, rfl⟩)
  | some c =>
    simp only [Option.bind_some]
    cases hu : fromUtf8 c with
    | none => exact .inr (.inl ⟨.panic, by decide, rfl⟩)
    | some s =>
      have hc := textBytes_of_fromUtf8 hu
      subst hc
      simp only
      cases hp : T.parse s with
      | none => exact .inr (.inl ⟨.nothing, by decide, rfl⟩)
      | some j =>
        simp only [Option.bind_some]
        cases hj : JsonFile.fromJson j with
        | none => exact .inr (.inl ⟨.nothing, by decide, rfl⟩)
        | some f =>
          simp only
          cases hw : f.writeToFile (o.getD (i.withExtension f.extension)) d with
          | mk r d' =>
            cases r with
            | true =>
              obtain ⟨b, hb, hh⟩ := C74_saved _ _ _ _ hw
              exact .inl ⟨s, j, f, b, d', rfl, hp, hj, hb, rfl, hh⟩
            | false =>
              rcases C74_failed _ _ _ _ hw with ⟨_, rfl⟩ | ⟨hn, hh⟩
              · exact .inr (.inl ⟨.panic, by decide, rfl⟩)
              · exact .inr (.inr ⟨s, j, f, d', rfl, hp, hj, hn, rfl, hh⟩)

/-- C74: a run of ssbh_lib_json changes at most one file. Without an output this is never the input. -/
theorem C74_lib_frame (T : JsonText) (i : Path) (o : Option Path) (d : Disk) :
    ∃ out, Output i o out ∧ ∀ q, q ≠ out → (libMain T i o d).2.files q = d.files q := by
  cases he : i.extension with
  | none =>
    refine ⟨o.getD (i.append ".json"), output_getD (append_json i), fun q _ => ?_⟩
    simp only [libMain, he]
  | some ext =>
    by_cases hj : ext = "json"
    · subst hj
      rcases C74_lib_back T i o d he with ⟨s, j, f, b, d', _, _, _, _, h, hh⟩ | ⟨x, _, h⟩ | ⟨s, j, f, d', _, _, _, _, h, hh⟩
      · exact ⟨_, output_getD (with_other i he (lib_extension f).1), fun q hq => by rw [h]; exact hh.others q hq⟩
      · exact ⟨o.getD (i.append ".json"), output_getD (append_json i), fun q _ => by rw [h]⟩
      · exact ⟨_, output_getD (with_other i he (lib_extension f).1), fun q hq => by rw [h]; exact hh.others q hq⟩
    · refine ⟨o.getD (i.append ".json"), output_getD (append_json i), fun q hq => ?_⟩
      rcases C74_lib_show T i o d ext he hj with ⟨f, d', _, h, hh⟩ | ⟨h, _⟩ | ⟨h, _⟩
      · rw [h]; exact hh.others q hq
      · rw [h]
      · rw [h]

/-- C74: ssbh_data_json with a file which is not JSON. The JSON of its data is written, or nothing is changed. -/
theorem C74_data_show (T : JsonText) (O : DataOps) (i : Path) (o : Option Path) (d : Disk) (ext : String)
    (he : i.extension = some ext) (hj : ext ≠ "json") :
    (∃ b f d', d.files i = some b ∧ Opens O ext b f ∧ dataMain T O i o d = (.done, d') ∧
      Holds d d' (o.getD (i.append ".json")) (textBytes (T.print f.toJson))) ∨
    (∃ x, x ≠ .done ∧ dataMain T O i o d = (x, d) ∧ ((∃ b f, d.files i = some b ∧ Opens O ext b f) →
      d.mayCreate (o.getD (i.append ".json")) = false)) := by
  unfold dataMain
  simp only [he, if_neg hj]
  cases hf : d.files i with
  | none =>
    refine .inr ?_
    simp only
    split
    · exact ⟨.message, by decide, rfl, fun ⟨b, f, h, _⟩ => by cases h⟩
    · exact ⟨.nothing, by decide, rfl, fun ⟨b, f, h, _⟩ => by cases h⟩
  | some b =>
    simp only
    have key : (∃ b' f, some b = some b' ∧ Opens O ext b' f) → ∃ j, DataFile.toJsonFile O ext b = .json j := by
      rintro ⟨_, f, h, ho⟩
      cases h
      exact ⟨_, (C64_shown O ext b _).mpr ⟨f, ho, rfl⟩⟩
    cases hs : DataFile.toJsonFile O ext b with
    | nothing => exact .inr ⟨.nothing, by decide, rfl, fun h => by obtain ⟨j, hj⟩ := key h; rw [hs] at hj; cases hj⟩
    | error => exact .inr ⟨.message, by decide, rfl, fun h => by obtain ⟨j, hj⟩ := key h; rw [hs] at hj; cases hj⟩
    | panic => exact .inr ⟨.panic, by decide, rfl, fun h => by obtain ⟨j, hj⟩ := key h; rw [hs] at hj; cases hj⟩
    | json j =>
      obtain ⟨f, hf, rfl⟩ := (C64_shown O ext b j).mp hs
      rcases writeJson_cases T f.toJson (o.getD (i.append ".json")) d with ⟨_, d', h, hh⟩ | ⟨hm, h⟩
      · exact .inl ⟨b, f, d', rfl, hf, h, hh⟩
      · exact .inr ⟨.panic, by decide, h, fun _ => hm⟩

/-- C74: ssbh_data_json with a JSON file. The bytes of the data are written. Otherwise the program panics and nothing is
changed, or the output is empty because a position does not fit in 64 bits. -/
theorem C74_data_back (T : JsonText) (O : DataOps) (i : Path) (o : Option Path) (d : Disk) (he : i.extension = some "json") :
    (∃ s j f b d', d.files i = some (textBytes s) ∧ T.parse s = some j ∧ DataFile.fromJson j = some f ∧ f.save O = .ok b ∧
      dataMain T O i o d = (.done, d') ∧ Holds d d' (o.getD (i.withExtension f.extension)) b) ∨
    dataMain T O i o d = (.panic, d) ∨
    (∃ s j f e d', d.files i = some (textBytes s) ∧ T.parse s = some j ∧ DataFile.fromJson j = some f ∧
      f.save O = .error (.write e) ∧ NoRoom e ∧
      dataMain T O i o d = (.panic, d') ∧ Holds d d' (o.getD (i.withExtension f.extension)) []) := by
  unfold dataMain
  simp only [he, if_true]
  cases hf : d.files i with
  | none => exact .inr (.inl rfl)
  | some c =>
    simp only [Option.bind_some]
    cases hu : fromUtf8 c with
    | none => exact .inr (.inl rfl)
    | some s =>
      have hc := textBytes_of_fromUtf8 hu
      subst hc
      simp only
      cases hp : T.parse s with
      | none => exact .inr (.inl rfl)
      | some j =>
        simp only [Option.bind_some]
        cases hj : DataFile.fromJson j with
        | none => exact .inr (.inl rfl)
        | some f =>
          simp only
          cases hw : f.writeToFile O (o.getD (i.withExtension f.extension)) d with
          | mk r d' =>
            cases r with
            | true =>
              rcases save_convert O f with ⟨h1, h2⟩ | ⟨g, b', h1, h2, h3, _⟩ | ⟨g, e, h1, h2, h3, h4, _⟩
              · rw [DataFile.writeToFile, h1] at hw; cases hw
              · rw [DataFile.writeToFile, h1] at hw
                obtain ⟨b, hb, hh⟩ := C74_saved _ _ _ _ hw
                rw [h2] at hb
                cases hb
                exact .inl ⟨s, j, f, b', d', rfl, hp, hj, h3, rfl, hh⟩
              · rw [DataFile.writeToFile, h1] at hw
                obtain ⟨b, hb, hh⟩ := C74_saved _ _ _ _ hw
                rw [h2] at hb
                cases hb
            | false =>
              rcases C74_data_failed _ _ _ _ _ hw with ⟨_, rfl⟩ | ⟨⟨e, hn, hl⟩, hh⟩
              · exact .inr (.inl rfl)
              · exact .inr (.inr ⟨s, j, f, e, d', rfl, hp, hj, hn, hl, rfl, hh⟩)

/-- C74: a run of ssbh_data_json changes at most one file. Without an output this is never the input. -/
theorem C74_data_frame (T : JsonText) (O : DataOps) (i : Path) (o : Option Path) (d : Disk) :
    ∃ out, Output i o out ∧ ∀ q, q ≠ out → (dataMain T O i o d).2.files q = d.files q := by
  cases he : i.extension with
  | none =>
    refine ⟨o.getD (i.append ".json"), output_getD (append_json i), fun q _ => ?_⟩
    simp only [dataMain, he]
  | some ext =>
    by_cases hj : ext = "json"
    · subst hj
      rcases C74_data_back T O i o d he with ⟨s, j, f, b, d', _, _, _, _, h, hh⟩ | h | ⟨s, j, f, e, d', _, _, _, _, _, h, hh⟩
      · exact ⟨_, output_getD (with_other i he (data_extension f).1), fun q hq => by rw [h]; exact hh.others q hq⟩
      · exact ⟨o.getD (i.append ".json"), output_getD (append_json i), fun q _ => by rw [h]⟩
      · exact ⟨_, output_getD (with_other i he (data_extension f).1), fun q hq => by rw [h]; exact hh.others q hq⟩
    · refine ⟨o.getD (i.append ".json"), output_getD (append_json i), fun q hq => ?_⟩
      rcases C74_data_show T O i o d ext he hj with ⟨b, f, d', _, _, h, hh⟩ | ⟨x, _, h, _⟩
      · rw [h]; exact hh.others q hq
      · rw [h]

/-- C74: for an extension of none of its eight types ssbh_data_json ends without a word, whatever the file is. -/
theorem C74_data_unknown (T : JsonText) (O : DataOps) (i : Path) (o : Option Path) (d : Disk) (ext : String)
    (he : i.extension = some ext) (hj : ext ≠ "json")
    (hx : ext ∉ ["numshb", "nusktb", "nuanmb", "numdlb", "numatb", "nuhlpb", "adjb", "numshexb"]) :
    dataMain T O i o d = (.nothing, d) := by
  simp only [List.mem_cons, List.not_mem_nil, or_false, not_or] at hx
  obtain ⟨h1, h2, h3, h4, h5, h6, h7, h8⟩ := hx
  unfold dataMain
  simp only [he, if_neg hj]
  cases d.files i with
  | none => simp [h1, h2, h3, h4, h5, h6, h7, h8]
  | some b => simp [DataFile.toJsonFile, h1, h2, h3, h4, h5, h6, h7, h8]

/-- The files of four types of ssbh_lib, and names in capital letters. -/
example : (Path.mk [] "a.nushdb".toList).extension = some "nushdb" ∧ (Path.mk [] "a.NUMDLB".toList).extension = some "NUMDLB" ∧
    ∀ e ∈ ["nulstb", "nurpdb", "nuflxb", "nushdb", "NUMDLB"], e ≠ "json" ∧
      e ∉ ["numshb", "nusktb", "nuanmb", "numdlb", "numatb", "nuhlpb", "adjb", "numshexb"] := by decide

/-- Where the JSON of the file goes, and where the file made from it goes. -/
def jsonOf (p : Path) : Path := ⟨p.folder, p.name ++ ".json".toList⟩
def backOf (p : Path) (ext : String) : Path := ⟨p.folder, p.name ++ '.' :: ext.toList⟩

theorem jsonOf_eq (p : Path) : p.append ".json" = jsonOf p := rfl

theorem jsonOf_extension {p : Path} (hp : p.name ≠ []) : (jsonOf p).extension = some "json" :=
  (C74_extension_of _ _).mpr ⟨p.name, hp, by decide, rfl⟩

theorem jsonOf_with {p : Path} (hp : p.name ≠ []) (e : String) : (jsonOf p).withExtension e = backOf p e :=
  C74_with_extension (jsonOf p) p.name "json" e hp (by decide) rfl

theorem name_ne {p : Path} {e : String} (h : p.extension = some e) : p.name ≠ [] := by
  obtain ⟨base, hb, _, hn⟩ := (C74_extension_of p e).mp h
  rw [hn]; simp

theorem backOf_ne (p : Path) (e : String) : backOf p e ≠ p := by
  intro h
  have := congrArg (fun q => q.name.length) h
  simp [backOf] at this

theorem jsonOf_ne (p : Path) : jsonOf p ≠ p := (append_json p).1

theorem backOf_ne_jsonOf (p : Path) {e : String} (h : e ≠ "json") : backOf p e ≠ jsonOf p := by
  intro hh
  have := congrArg Path.name hh
  simp only [backOf, jsonOf, List.append_cancel_left_eq] at this
  rw [show ".json".toList = '.' :: "json".toList by decide] at this
  simp only [List.cons.injEq, true_and] at this
  exact h (String.toList_inj.mp this)

/-- C74: a file, converted to JSON and back with ssbh_lib_json and no output names. The file is as before, the new file is
what writing the value gives and has the extension of its type at its end, and opening it gives the value of the file. Only
the JSON and this file are new. -/
theorem C74_lib_round_trip (T : JsonText) (p : Path) (d : Disk) (ext : String) (f : JsonFile) (b : Bytes)
    (he : p.extension = some ext) (hj : ext ≠ "json") (hf : JsonFile.fromFile ext p d = some f)
    (hk : fileKept.fin f = true ∧ fileKept.norm f = f) (hw : f.write = some b) (hc : Counted f)
    (hm : d.mayCreate (jsonOf p) = true ∧ d.mayCreate (backOf p f.extension) = true)
    (ht : T.parse (T.print f.toJson) = some f.toJson) :
    ∃ d1 d2, libMain T p none d = (.done, d1) ∧ libMain T (jsonOf p) none d1 = (.done, d2) ∧
      d2.files (jsonOf p) = some (textBytes (T.print f.toJson)) ∧ d2.files (backOf p f.extension) = some b ∧
      (backOf p f.extension).extension = some f.extension ∧
      JsonFile.fromFile f.extension (backOf p f.extension) d2 = some f ∧ d2.files p = d.files p ∧
      ∀ q, q ≠ jsonOf p → q ≠ backOf p f.extension → d2.files q = d.files q := by
  have hp := name_ne he
  have hx := lib_extension f
  rcases C74_lib_show T p none d ext he hj with ⟨g, d1, hg, h1, hh1⟩ | ⟨_, hn⟩ | ⟨_, hn⟩
  · rw [hf] at hg
    cases hg
    simp only [Option.getD_none, jsonOf_eq] at hh1
    have hm' : d1.mayCreate (backOf p f.extension) = true := by rw [hh1.rights]; exact hm.2
    obtain ⟨d2, h2, hh2, ho⟩ := C74_save f b (backOf p f.extension) d1 hw hm'
    refine ⟨d1, d2, h1, ?_, ?_, hh2.content, ?_, ho hc, ?_, ?_⟩
    · unfold libMain
      simp only [jsonOf_extension hp, if_true, hh1.content, Option.bind_some, fromUtf8_textBytes, ht, Option.getD_none,
        (C63_exact f).mpr hk, jsonOf_with hp, h2]
    · rw [hh2.others _ (backOf_ne_jsonOf p hx.1).symm, hh1.content]
    · exact (C74_extension_of _ _).mpr ⟨p.name, hp, hx.2, rfl⟩
    · rw [hh2.others _ (backOf_ne p _).symm, hh1.others _ (jsonOf_ne p).symm]
    · intro q hq1 hq2
      rw [hh2.others q hq2, hh1.others q hq1]
  · rw [hf] at hn; cases hn
  · simp only [Option.getD_none, jsonOf_eq] at hn
    rw [hm.1] at hn; cases hn

/-- C74: a file, converted to JSON and back with ssbh_data_json and no output names. The new file is what opening and saving
the file gives. Except for Mesh and Anim files, where C53 and C64 say why, it has the same data. -/
theorem C74_data_round_trip (T : JsonText) (O : DataOps) (p : Path) (d : Disk) (ext : String) (f : DataFile) (b b' : Bytes)
    (he : p.extension = some ext) (hf : d.files p = some b) (ho : Opens O ext b f) (hk : fileFinite f = true)
    (hs : f.save O = .ok b') (hm : d.mayCreate (jsonOf p) = true ∧ d.mayCreate (backOf p ext) = true)
    (ht : T.parse (T.print f.toJson) = some f.toJson) :
    ∃ d1 d2, dataMain T O p none d = (.done, d1) ∧ dataMain T O (jsonOf p) none d1 = (.done, d2) ∧
      d2.files (jsonOf p) = some (textBytes (T.print f.toJson)) ∧ d2.files (backOf p ext) = some b' ∧
      (backOf p ext).extension = some ext ∧ (ext ≠ "numshb" ∧ ext ≠ "nuanmb" → Opens O ext b' f) ∧ d2.files p = d.files p ∧
      ∀ q, q ≠ jsonOf p → q ≠ backOf p ext → d2.files q = d.files q := by
  have hp := name_ne he
  have hx := data_extension f
  have hxe := opens_extension ho
  subst hxe
  rcases C74_data_show T O p none d _ he hx.1 with ⟨b2, g, d1, hb2, hg, h1, hh1⟩ | ⟨_, _, _, hn⟩
  · rw [hf] at hb2
    cases hb2
    have hgf : g.toJson = f.toJson := by
      have e1 := (C64_shown O f.extension b f.toJson).mpr ⟨f, ho, rfl⟩
      have e2 := (C64_shown O f.extension b g.toJson).mpr ⟨g, hg, rfl⟩
      rw [e1] at e2
      exact (DataFile.Shown.json.inj e2).symm
    rw [hgf] at hh1
    simp only [Option.getD_none, jsonOf_eq] at hh1
    have hm' : d1.mayCreate (backOf p f.extension) = true := by rw [hh1.rights]; exact hm.2
    obtain ⟨d2, h2, hh2⟩ := C74_data_save O f b' (backOf p f.extension) d1 hs hm'
    refine ⟨d1, d2, h1, ?_, ?_, hh2.content, ?_, ?_, ?_, ?_⟩
    · unfold dataMain
      simp only [jsonOf_extension hp, if_true, hh1.content, Option.bind_some, fromUtf8_textBytes, ht, Option.getD_none,
        (C64_round_trip f).1 hk, jsonOf_with hp, h2]
    · rw [hh2.others _ (backOf_ne_jsonOf p hx.1).symm, hh1.content]
    · exact (C74_extension_of _ _).mpr ⟨p.name, hp, hx.2, rfl⟩
    · intro hne
      cases f with
      | mesh v => exact absurd rfl hne.1
      | anim v => exact absurd rfl hne.2
      | skel v => exact ⟨rfl, C47_skel O.matrices b v ho.2 b' hs⟩
      | modl v => exact ⟨rfl, C47_modl b v ho.2 b' hs⟩
      | matl v => exact ⟨rfl, C47_matl b v ho.2 b' hs⟩
      | hlpb v => exact ⟨rfl, C47_hlpb b v ho.2 b' hs⟩
      | meshEx v => exact ⟨rfl, C47_meshex O.sphereOf b v ho.2 b' hs⟩
      | adj v => exact ⟨rfl, C47_adj b v ho.2 b' hs⟩
    · rw [hh2.others _ (backOf_ne p _).symm, hh1.others _ (jsonOf_ne p).symm]
    · intro q hq1 hq2
      rw [hh2.others q hq2, hh1.others q hq1]
  · have := hn ⟨b, f, hf, ho⟩
    simp only [Option.getD_none, jsonOf_eq] at this
    rw [hm.1] at this; cases this

/-- `exModl` in the folder "a". -/
def exFolder (b : Bytes) : Disk where
  files q := if q = ⟨"a".toList, "model.numdlb".toList⟩ then some b else none
  mayCreate q := q.folder = "a".toList

/-- A text in which the value can be found again. -/
def exText (j : J) : JsonText := ⟨fun _ => "{}", fun _ => some j⟩

def modlFile : JsonFile := jsonModl (str "model") (some (str "a"))

example : ∃ b d1 d2, libMain (exText modlFile.toJson) ⟨"a".toList, "model.numdlb".toList⟩ none (exFolder b) = (.done, d1) ∧
    libMain (exText modlFile.toJson) ⟨"a".toList, "model.numdlb.json".toList⟩ none d1 = (.done, d2) ∧
    d2.files ⟨"a".toList, "model.numdlb".toList⟩ = some b ∧ d2.files ⟨"a".toList, "model.numdlb.numdlb".toList⟩ = some b ∧
    JsonFile.fromFile "numdlb" ⟨"a".toList, "model.numdlb.numdlb".toList⟩ d2 = some modlFile := by
  obtain ⟨b, hb⟩ : ∃ b, modlFile.write = some b := Option.isSome_iff_exists.mp (by decide +kernel)
  have hr : JsonFile.read "numdlb" b = .ok modlFile := read_written modlFile b trivial hb
  have hd : (exFolder b).files ⟨"a".toList, "model.numdlb".toList⟩ = some b := rfl
  obtain ⟨d1, d2, h1, h2, _, h4, _, h6, h7, _⟩ := C74_lib_round_trip (exText modlFile.toJson) ⟨"a".toList, "model.numdlb".toList⟩
    (exFolder b) "numdlb" modlFile b (by decide) (by decide) (by simp only [JsonFile.fromFile, hd, hr])
    ⟨by decide, by decide +kernel⟩ hb trivial ⟨rfl, rfl⟩ rfl
  exact ⟨b, d1, d2, h1, h2, by rw [h7, hd], h4, h6⟩

def modlData : DataFile := .modl ⟨1, 7, "model", "model.nusktb", ["model.numatb"], none, "model.numshb", [⟨"head", 0, "mat"⟩]⟩

example (O : DataOps) : ∃ b d1 d2,
    dataMain (exText modlData.toJson) O ⟨"a".toList, "model.numdlb".toList⟩ none (exFolder b) = (.done, d1) ∧
    dataMain (exText modlData.toJson) O ⟨"a".toList, "model.numdlb.json".toList⟩ none d1 = (.done, d2) ∧
    d2.files ⟨"a".toList, "model.numdlb".toList⟩ = some b ∧ d2.files ⟨"a".toList, "model.numdlb.numdlb".toList⟩ = some b := by
  obtain ⟨b, hb⟩ : ∃ b, ModlData.write ⟨1, 7, "model", "model.nusktb", ["model.numatb"], none, "model.numshb", [⟨"head", 0, "mat"⟩]⟩ =
    .ok b := isOk_iff.mp (by decide +kernel)
  have ho : Opens O "numdlb" b modlData := by
    refine ⟨rfl, (C45_modl _ b hb).trans (congrArg Except.ok ?_)⟩
    decide
  have hd : (exFolder b).files ⟨"a".toList, "model.numdlb".toList⟩ = some b := rfl
  obtain ⟨d1, d2, h1, h2, _, h4, _, _, h7, _⟩ := C74_data_round_trip (exText modlData.toJson) O
    ⟨"a".toList, "model.numdlb".toList⟩ (exFolder b) "numdlb" modlData b b (by decide) hd ho rfl hb ⟨rfl, rfl⟩ rfl
  exact ⟨b, d1, d2, h1, h2, by rw [h7, hd], h4⟩

end Verif.Props
