import Verif.Tools.Test
import Verif.Props.Disk
import Verif.Props.Image
import Verif.Props.FileLayout
/-!
# C75 to C77: the programs and the names of files

The documented extensions, ssbh_test, and comparing files by their JSON.
-/

namespace Verif.Props

open Verif

/-! ## C75: documented extensions -/

inductive Kind where
  | hlpb | matl | modl | mesh | skel | anim | nlst | nrpd | nufx | shdr | meshEx | adj
  deriving DecidableEq

/-- The table in /repo/README.md:8-21. -/
def documented : Kind → List String
  | .hlpb => ["nuhlpb"]
  | .matl => ["numatb"]
  | .modl => ["numdlb", "nusrcmdlb"]
  | .mesh => ["numshb"]
  | .skel => ["nusktb"]
  | .anim => ["nuanmb"]
  | .nlst => ["nulstb"]
  | .nrpd => ["nurpdb"]
  | .nufx => ["nufxlb"]
  | .shdr => ["nushdb"]
  | .meshEx => ["numshexb"]
  | .adj => ["adjb"]

def fileKind : JsonFile → Kind
  | .ssbh (.Hlpb _) => .hlpb
  | .ssbh (.Matl _) => .matl
  | .ssbh (.Modl _) => .modl
  | .ssbh (.Mesh _) => .mesh
  | .ssbh (.Skel _) => .skel
  | .ssbh (.Anim _) => .anim
  | .ssbh (.Nlst _) => .nlst
  | .ssbh (.Nrpd _) => .nrpd
  | .ssbh (.Nufx _) => .nufx
  | .ssbh (.Shdr _) => .shdr
  | .meshEx _ => .meshEx
  | .adj _ => .adj

def dataKind : DataFile → Kind
  | .mesh _ => .mesh
  | .skel _ => .skel
  | .anim _ => .anim
  | .modl _ => .modl
  | .matl _ => .matl
  | .hlpb _ => .hlpb
  | .meshEx _ => .meshEx
  | .adj _ => .adj

/-- C75: ssbh_lib_json opens a file of any type under every documented extension of the type. -/
theorem C75_lib_opens (f : JsonFile) (b : Bytes) (ext : String) (hx : ext ∈ documented (fileKind f)) (hw : f.write = some b)
    (hc : Counted f) : JsonFile.read ext b = .ok f := by
  have h := read_written f b hc hw
  have other : ∀ e : String, e ≠ "adjb" → e ≠ "numshexb" → JsonFile.read ext b = JsonFile.read e b ∨ ext = "adjb" ∨ ext = "numshexb" := by
    intro e h1 h2
    by_cases h3 : ext = "adjb"
    · exact .inr (.inl h3)
    by_cases h4 : ext = "numshexb"
    · exact .inr (.inr h4)
    · left; simp only [JsonFile.read, if_neg h1, if_neg h2, if_neg h3, if_neg h4]
  cases f with
  | ssbh v =>
    rcases other (JsonFile.ssbh v).extension (by cases v <;> simp [JsonFile.extension]) (by cases v <;> simp [JsonFile.extension])
      with h1 | h1 | h1
    · rw [h1, h]
    · subst h1; cases v <;> simp [fileKind, documented] at hx
    · subst h1; cases v <;> simp [fileKind, documented] at hx
  | meshEx v =>
    simp only [fileKind, documented, List.mem_singleton] at hx
    subst hx; exact h
  | adj v =>
    simp only [fileKind, documented, List.mem_singleton] at hx
    subst hx; exact h

/-- C75: ssbh_lib_json gives a new file a documented extension of its type. Missing: Nufx, for which this is false
(`C75_nufx`). -/
theorem C75_lib_names_partial (f : JsonFile) (h : fileKind f ≠ .nufx) : f.extension ∈ documented (fileKind f) := by
  cases f with
  | ssbh v => cases v <;> first | exact absurd rfl h | simp [JsonFile.extension, fileKind, documented]
  | meshEx v => simp [JsonFile.extension, fileKind, documented]
  | adj v => simp [JsonFile.extension, fileKind, documented]

/-- C75: the extension for Nufx files is not the documented one, and no documented one of another type either. -/
theorem C75_nufx (v : Nufx) (k : Kind) : (JsonFile.ssbh (.Nufx v)).extension ∉ documented k := by
  cases k <;> simp [JsonFile.extension, documented]

/-- C75: so ssbh_test does not look at a Nufx file which ssbh_lib_json has made. -/
theorem C75_nufx_test (v : Nufx) (b : Bytes) : ssbhTest (JsonFile.ssbh (.Nufx v)).extension b = none := rfl

/-- C75: ssbh_data_json gives a new file a documented extension of its type. -/
theorem C75_data_names (f : DataFile) : f.extension ∈ documented (dataKind f) := by
  cases f <;> simp [DataFile.extension, dataKind, documented]

/-- C75: ssbh_data_json opens a file under the documented extensions of its type as this type: what is shown for a file with
such an extension is the JSON of data of this type. Missing: the extension "nusrcmdlb" (`C75_nusrcmdlb`). -/
theorem C75_data_opens_partial (O : DataOps) (f : DataFile) (ext : String) (hx : ext ∈ documented (dataKind f))
    (hn : ext ≠ "nusrcmdlb") (b : Bytes) :
    ext = f.extension ∧ (Opens O f.extension b f → DataFile.toJsonFile O ext b = .json f.toJson) ∧
    ∀ j, DataFile.toJsonFile O ext b = .json j → ∃ g, dataKind g = dataKind f ∧ j = g.toJson := by
  have he : ext = f.extension := by
    cases f <;> simp [documented, dataKind] at hx <;> simp_all [DataFile.extension]
  subst he
  refine ⟨rfl, fun h => (C64_shown O _ b _).mpr ⟨f, h, rfl⟩, fun j hj => ?_⟩
  obtain ⟨g, hg, rfl⟩ := (C64_shown O _ b j).mp hj
  refine ⟨g, ?_, rfl⟩
  have := opens_extension hg
  cases f <;> cases g <;> simp [DataFile.extension] at this <;> rfl

/-- C75: ssbh_data_json does nothing with models that have the second documented extension. ssbh_lib_json opens them
(`C75_lib_opens`). -/
theorem C75_nusrcmdlb (O : DataOps) (T : JsonText) (i : Path) (o : Option Path) (d : Disk) (he : i.extension = some "nusrcmdlb") :
    dataMain T O i o d = (.nothing, d) := C74_data_unknown T O i o d "nusrcmdlb" he (by decide) (by decide)

/-- C75: ssbh_test looks at the files with documented extensions. Missing: Nlst files and the second extension of models. -/
theorem C75_test_partial (k : Kind) (ext : String) (hx : ext ∈ documented k) (hn : k ≠ .nlst) (hm : ext ≠ "nusrcmdlb") (b : Bytes) :
    (ssbhTest ext b).isSome = true := by
  cases k <;> simp [documented] at hx <;> first | exact absurd rfl hn | (subst hx; rfl) | skip
  rcases hx with rfl | rfl
  · rfl
  · exact absurd rfl hm

/-- C75: it does not look at those. -/
theorem C75_test_missing (b : Bytes) : ssbhTest "nulstb" b = none ∧ ssbhTest "nusrcmdlb" b = none := ⟨rfl, rfl⟩

/-! ## C76: ssbh_test -/

theorem check_cases {α : Type} {read : Bytes → Except RErr α} {write : α → Option Bytes} {b : Bytes} :
    (checkReadWrite read write b = .nothing ↔ ∃ v, read b = .ok v ∧ write v = some b) ∧
    (checkReadWrite read write b = .different ↔ ∃ v c, read b = .ok v ∧ write v = some c ∧ c ≠ b) ∧
    (checkReadWrite read write b = .unreadable ↔ ∃ e, read b = .error e) ∧
    (checkReadWrite read write b = .panic ↔ ∃ v, read b = .ok v ∧ write v = none) := by
  unfold checkReadWrite
  cases hr : read b with
  | error e => simp
  | ok v =>
    simp only [Except.ok.injEq]
    cases hw : write v with
    | none => simp [hw]
    | some c =>
      by_cases hc : b = c
      · subst hc; simp [hw]
      · simp [hw, hc, Ne.symm hc]

theorem ssbh_write_some {s : Ssbh} {b : Bytes} : (JsonFile.ssbh s).write = some b ↔ s.write = .ok b := by
  simp only [JsonFile.write]
  cases s.write with
  | error e => simp
  | ok c => simp

theorem meshEx_write_some {v : MeshEx} {b : Bytes} : (JsonFile.meshEx v).write = some b ↔ v.write = .ok b := by
  simp only [JsonFile.write]
  cases v.write with
  | error e => simp
  | ok c => simp

theorem adj_write_some {v : Adj} {b : Bytes} : (JsonFile.adj v).write = some b ↔ v.write = .ok b := by
  simp only [JsonFile.write]
  cases v.write with
  | error e => simp
  | ok c => simp

/-- C76: ssbh_test is silent about a file with the extension of one of nine formats exactly if the file is what saving some
value gives. -/
theorem C76_silent (ext : String)
    (hx : ext ∈ ["numatb", "numdlb", "numshb", "nusktb", "nurpdb", "nufxlb", "nuanmb", "nuhlpb", "nushdb"]) (b : Bytes) :
    ssbhTest ext b = some .nothing ↔ ∃ s : Ssbh, s.write = .ok b := by
  rw [ssbhTest, if_pos hx, Option.some.injEq, check_cases.1]
  simp only [ssbh_write_some]
  exact ⟨fun ⟨s, _, h⟩ => ⟨s, h⟩, fun ⟨s, h⟩ => ⟨s, C01_ssbh_round_trip s b h, h⟩⟩

/-- C76: in other words, exactly if the file is laid out by the rules of C69: structures one after the other, each target at
the next multiple of its alignment. -/
theorem C76_laid_out (ext : String)
    (hx : ext ∈ ["numatb", "numdlb", "numshb", "nusktb", "nurpdb", "nufxlb", "nuanmb", "nuhlpb", "nushdb"]) (b : Bytes) (s : Ssbh)
    (hr : Ssbh.read b = .ok s) (hs : s.image.stop < 2 ^ 64) :
    ssbhTest ext b = some (if b = s.image.bytes then .nothing else .different) := by
  have hw := C69_success s hs
  rw [ssbhTest, if_pos hx]
  congr 1
  split
  · rename_i h
    exact check_cases.1.mpr ⟨s, hr, by rw [ssbh_write_some, hw, h]⟩
  · rename_i h
    exact check_cases.2.1.mpr ⟨s, _, hr, ssbh_write_some.mpr hw, fun e => h e.symm⟩

/-- C76: the only reason for it to stop there is a position which does not fit in 64 bits. -/
theorem C76_stops (ext : String)
    (hx : ext ∈ ["numatb", "numdlb", "numshb", "nusktb", "nurpdb", "nufxlb", "nuanmb", "nuhlpb", "nushdb"]) (b : Bytes)
    (h : ssbhTest ext b = some .panic) : ∃ s, Ssbh.read b = .ok s ∧ s.write = .error .overflow := by
  rw [ssbhTest, if_pos hx, Option.some.injEq, check_cases.2.2.2] at h
  obtain ⟨s, hr, hw⟩ := h
  refine ⟨s, hr, ?_⟩
  cases hs : s.write with
  | ok c => rw [ssbh_write_some.mpr hs] at hw; cases hw
  | error e => rw [C01_write_total s e hs]

theorem adj_counted {b : Bytes} {v : Adj} (h : Adj.read b = .ok v) : v.entries.length < 2 ^ 32 := ((C65_adj b v).mp h).1.1

theorem meshEx_counted {b : Bytes} {v : MeshEx} (h : MeshEx.read b = .ok v) :
    countOf v.entries < 2 ^ 32 ∧ countOf v.entry_flags < 2 ^ 32 ∧ countOf v.mesh_object_groups < 2 ^ 32 := by
  refine ⟨(meshEx_read_counts h).2, ?_, (meshEx_read_counts h).1⟩
  obtain ⟨_, n, m, hn, _, _, _, _, hf, _⟩ := (C65_meshex b v).mp h
  cases hv : v.entry_flags with
  | none => decide
  | some l =>
    rw [hv] at hf
    obtain ⟨_, _, _, hl⟩ := hf
    simp only [countOf, Option.getD_some]
    rw [hl.1]
    exact hn.1

/-- C76: Adj files. -/
theorem C76_adj (b : Bytes) : ssbhTest "adjb" b = some .nothing ↔ ∃ v : Adj, v.entries.length < 2 ^ 32 ∧ v.write = .ok b := by
  rw [ssbhTest, if_neg (by decide), if_neg (by decide), if_pos rfl, Option.some.injEq, check_cases.1]
  simp only [adj_write_some]
  exact ⟨fun ⟨v, h, hw⟩ => ⟨v, adj_counted h, hw⟩, fun ⟨v, h, hw⟩ => ⟨v, C17_adj_round_trip v h b hw, hw⟩⟩

/-- Equal numbers at the same place have the same bytes. -/
theorem numAt_same {n p x : Nat} {b c : Bytes} (h1 : Layout.NumAt n b p x) (h2 : Layout.NumAt n c p x) (i : Nat) (hi : i < n) :
    b[p + i]? = c[p + i]? := by rw [h1.2 i hi, h2.2 i hi]

/-- C76: ssbh_test never stops at an Adj file, and reports a readable one exactly if the number of bytes after the entries is
odd. -/
theorem C76_adj_report (b : Bytes) (v : Adj) (h : Adj.read b = .ok v) :
    ssbhTest "adjb" b = some (if (b.length - (4 + v.entries.length * 8)) % 2 = 0 then .nothing else .different) := by
  have hf := (C65_adj b v).mp h
  obtain ⟨hc, hl⟩ := C65_adj_written v (adj_counted h) _ (C17_adj_written v)
  generalize hcb : adjBytes v = c at hc hl
  have hw : (JsonFile.adj v).write = some c := by rw [adj_write_some, C17_adj_written, hcb]
  have h4 : 4 ≤ b.length := by
    have := hf.1.2 3 (by decide)
    have := (List.getElem?_eq_some_iff.mp this).1
    omega
  have hle : 4 + v.entries.length * 8 ≤ b.length := by
    cases hn : v.entries.length with
    | zero => omega
    | succ n =>
      have := (hf.2.1 n (by omega)).2.2 3 (by decide)
      have := (List.getElem?_eq_some_iff.mp this).1
      omega
  have key : b = c ↔ (b.length - (4 + v.entries.length * 8)) % 2 = 0 := by
    constructor
    · rintro rfl; omega
    · intro he
      have hlen : b.length = c.length := by have := hf.2.2.1; omega
      apply List.ext_getElem?
      intro j
      by_cases h1 : j < 4
      · have := numAt_same hf.1 hc.1 j h1
        simpa using this
      by_cases h2 : j < 4 + v.entries.length * 8
      · have hi : (j - 4) / 8 < v.entries.length := by omega
        have hb := hf.2.1 _ hi
        have hc := hc.2.1 _ hi
        by_cases h3 : (j - 4) % 8 < 4
        · have := numAt_same hb.1 hc.1 ((j - 4) % 8) h3
          rwa [show 4 + (j - 4) / 8 * 8 + (j - 4) % 8 = j by omega] at this
        · have := numAt_same hb.2 hc.2 ((j - 4) % 8 - 4) (by omega)
          rwa [show 4 + (j - 4) / 8 * 8 + 4 + ((j - 4) % 8 - 4) = j by omega] at this
      by_cases h3 : j < b.length
      · have hi : (j - (4 + v.entries.length * 8)) / 2 < v.index_buffer.length := by omega
        have := numAt_same (hf.2.2.2 _ hi) (hc.2.2.2 _ hi) ((j - (4 + v.entries.length * 8)) % 2) (by omega)
        rwa [show 4 + v.entries.length * 8 + (j - (4 + v.entries.length * 8)) / 2 * 2 + (j - (4 + v.entries.length * 8)) % 2 = j by omega]
          at this
      · rw [List.getElem?_eq_none (by omega), List.getElem?_eq_none (by omega)]
  rw [ssbhTest, if_neg (by decide), if_neg (by decide), if_pos rfl]
  congr 1
  split
  · rename_i he
    exact check_cases.1.mpr ⟨v, h, by rw [hw, key.mpr he]⟩
  · rename_i he
    exact check_cases.2.1.mpr ⟨v, c, h, hw, fun e => he (key.mp e.symm)⟩

/-- C76: MeshEx files. -/
theorem C76_meshex (b : Bytes) : ssbhTest "numshexb" b = some .nothing ↔ ∃ v : MeshEx, v.write = .ok b ∧
    countOf v.entries < 2 ^ 32 ∧ countOf v.entry_flags < 2 ^ 32 ∧ countOf v.mesh_object_groups < 2 ^ 32 := by
  rw [ssbhTest, if_neg (by decide), if_pos rfl, Option.some.injEq, check_cases.1]
  simp only [meshEx_write_some]
  exact ⟨fun ⟨v, h, hw⟩ => ⟨v, hw, meshEx_counted h⟩,
    fun ⟨v, hw, h1, h2, h3⟩ => ⟨v, (C15_meshex_file v b hw h1 h2 h3).2.2, hw⟩⟩

/-- A MeshEx file with one flag and no entries: a count of 1, a null pointer, a pointer to the flags. -/
def exNullEntries : Bytes := [64, 0, 0, 0, 0, 0, 0, 0, 1, 0, 0, 0, 0, 0, 0, 0, 0, 0, 0, 0, 0, 0, 0, 0, 0, 0, 0, 0, 0, 0, 0, 0,
  0, 0, 0, 0, 0, 0, 0, 0, 52, 0, 0, 0, 0, 0, 0, 0, 0, 0, 0, 0, 3, 0, 0, 0, 0, 0, 0, 0, 0, 0, 0, 0]

/-- C76: ssbh_test panics on a MeshEx file with a null pointer to the entries and flags, which is read without an error. The
other files of the folder are then not checked. -/
theorem C76_panics : ssbhTest "numshexb" exNullEntries = some .panic := by decide +kernel

example : ∃ b, ssbhTest "numdlb" b = some .nothing := by
  obtain ⟨b, hb⟩ := exModl_write
  exact ⟨b, (C76_silent _ (by decide) b).mpr ⟨_, hb⟩⟩

/-- A byte after the end of a file is not written again. -/
example : ∃ b, ssbhTest "numdlb" (b ++ [1]) = some .different := by
  have hs : exModl.image.stop < 2 ^ 64 := by decide +kernel
  have hw := C69_success _ hs
  refine ⟨exModl.image.bytes, ?_⟩
  rw [C76_laid_out _ (by decide) _ exModl (C03_trailing_bytes _ _ _ hw) hs, if_neg (by simp)]

/-! ## C77: comparing files by their JSON -/

/-- The bytes describe this value: the structures, texts and numbers of the value stand where the pointers say. -/
def FileAt (b : Bytes) : JsonFile → Prop
  | .ssbh v => Ssbh.FileAt b v
  | .meshEx v => MeshEx.FileAt b v
  | .adj v => Adj.FileAt b v

theorem read_fileAt {ext : String} {b : Bytes} {f : JsonFile} (h : JsonFile.read ext b = .ok f) : FileAt b f := by
  unfold JsonFile.read at h
  split at h
  · split at h
    · rename_i hv; cases h; exact (C65_adj _ _).mp hv
    · cases h
  · split at h
    · split at h
      · rename_i hv; cases h; exact (C65_meshex _ _).mp hv
      · cases h
    · split at h
      · rename_i hv; cases h; exact (C65_read _ _).mp hv
      · cases h

/-- C77: two files with the same JSON contain the same value if JSON keeps all of what they contain: their bytes are two
descriptions of one value, so they differ at most in padding, order and sharing. -/
theorem C77_same_data (e1 e2 : String) (b1 b2 : Bytes) (f1 f2 : JsonFile) (h1 : JsonFile.read e1 b1 = .ok f1)
    (h2 : JsonFile.read e2 b2 = .ok f2) (k1 : fileKept.fin f1 = true ∧ fileKept.norm f1 = f1)
    (k2 : fileKept.fin f2 = true ∧ fileKept.norm f2 = f2) :
    f1.toJson = f2.toJson ↔ ∃ f, FileAt b1 f ∧ FileAt b2 f ∧ f = f1 ∧ f = f2 := by
  constructor
  · intro h
    have := C63_injective f1 f2 ((C63_exact f1).mpr k1) ((C63_exact f2).mpr k2) h
    subst this
    exact ⟨f1, read_fileAt h1, read_fileAt h2, rfl, rfl⟩
  · rintro ⟨f, _, _, rfl, rfl⟩
    rfl

/-- C77: without non-finite floats, files have the same JSON exactly if their values are the same after what JSON does to them:
texts that are not UTF-8 become empty, pointers to nothing become nothing. -/
theorem C77_finite (f1 f2 : JsonFile) (k1 : fileKept.fin f1 = true) (k2 : fileKept.fin f2 = true) :
    f1.toJson = f2.toJson ↔ fileKept.norm f1 = fileKept.norm f2 := by
  have e1 := (C63_round_trip f1).1 k1
  have e2 := (C63_round_trip f2).1 k2
  constructor
  · intro h
    rw [h, e2] at e1
    exact (Option.some.inj e1).symm
  · intro h
    rw [← C63_same_json f1 _ e1, ← C63_same_json f2 _ e2, h]

/-- C77: files with the same JSON are written by ssbh_lib_json as the same file. -/
theorem C77_same_file (f1 f2 g : JsonFile) (h : f1.toJson = f2.toJson) (hj : JsonFile.fromJson f1.toJson = some g) :
    JsonFile.fromJson f2.toJson = some g := by rw [← h]; exact hj

def jsonInf : JsonFile := .ssbh (.Skel (.V10 {
  bone_entries := [], world_transforms := [], inv_world_transforms := [], inv_transforms := []
  transforms := [⟨⟨0x7f800000, 0, 0, 0⟩, ⟨0, 1, 0, 0⟩, ⟨0, 0, 1, 0⟩, ⟨0, 0, 0, 1⟩⟩] }))

/-- C77: two files with different data have the same JSON: an infinity and a NaN are both shown as `null`. -/
theorem C77_hidden : ∃ b1 b2 f1 f2, JsonFile.read "nusktb" b1 = .ok f1 ∧ JsonFile.read "nusktb" b2 = .ok f2 ∧ f1 ≠ f2 ∧
    f1.toJson = f2.toJson := by
  obtain ⟨b1, h1⟩ := jsonNan_write
  obtain ⟨b2, h2⟩ : ∃ b, jsonInf.write = some b := Option.isSome_iff_exists.mp (by decide +kernel)
  exact ⟨b1, b2, jsonNan, jsonInf, read_written jsonNan b1 trivial h1, read_written jsonInf b2 trivial h2, by decide, rfl⟩

/-- Two files with the same JSON and different bytes. -/
example : ∃ b1 b2, b1 ≠ b2 ∧ JsonFile.read "numdlb" b1 = .ok modlFile ∧ JsonFile.read "numdlb" b2 = .ok modlFile := by
  obtain ⟨b, hb⟩ : ∃ b, modlFile.write = some b := Option.isSome_iff_exists.mp (by decide +kernel)
  have hs := ssbh_write_some.mp (show (JsonFile.ssbh (.Modl (.V17 {
    model_name := str "model", skeleton_file_name := str "", material_file_names := [str "a.numatb"],
    animation_file_name := some (str "a"), mesh_file_name := str "model.numshb", entries := [] }))).write = some b from hb)
  refine ⟨b, b ++ [0], by simp, read_written modlFile b trivial hb, ?_⟩
  have := C03_trailing_bytes _ _ [0] hs
  simp only [JsonFile.read]
  rw [if_neg (by decide), if_neg (by decide), this]
  rfl

end Verif.Props
