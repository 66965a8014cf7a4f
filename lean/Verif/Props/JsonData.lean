import Verif.Json.DataTool
import Verif.Json.DataLaws
import Verif.Json.DataOrder
import Verif.Props.Json
import Verif.Props.DataFiles
/-!
# C64: data as JSON

The types of ssbh_data with the feature `serde`, and the tool ssbh_data_json.
-/

namespace Verif.Props

open Verif

/-- All floats are finite. -/
def fileFinite : DataFile → Bool
  | .mesh v => v.finite
  | .skel v => v.finite
  | .anim v => v.finite
  | .modl _ => true
  | .matl v => v.finite
  | .hlpb v => v.finite
  | .meshEx v => v.finite
  | .adj v => v.finite

/-! ## Required fields -/

/-- Without an entry of this name there is no value. -/
def Needs (r : JRec α) (n : String) : Prop := ∀ get, get n = none → r.de get = none

theorem needs_field {c : JCodec α} {n : String} (h : c.miss = none) : Needs (.field n c) n := by
  intro get hg
  simp only [JRec.field, hg, h]

theorem needs_left {r : JRec α} {s : JRec β} {n : String} (h : Needs r n) : Needs (r.and s) n := by
  intro get hg
  simp only [JRec.and, h get hg]

theorem needs_right {r : JRec α} {s : JRec β} {n : String} (h : Needs s n) : Needs (r.and s) n := by
  intro get hg
  simp only [JRec.and, h get hg]
  cases r.de get <;> rfl

theorem struct_needs {r : JRec β} {f : α → β} {g : β → α} {n : String} (h : Needs r n) {l : List (String × J)}
    (hl : l.lookup n = none) : (JCodec.struct r f g).de (.obj l) = none := by
  simp only [JCodec.struct]
  split
  · rfl
  · rw [h _ hl]
    rfl

theorem mesh_needs {l : List (String × J)} (h : l.lookup "objects" = none) : MeshData.json.de (.obj l) = none :=
  struct_needs (needs_right (needs_right (needs_field rfl))) h
theorem skel_needs {l : List (String × J)} (h : l.lookup "bones" = none) : SkelData.json.de (.obj l) = none :=
  struct_needs (needs_right (needs_right (needs_field rfl))) h
theorem anim_needs {l : List (String × J)} (h : l.lookup "groups" = none) : AnimData.json.de (.obj l) = none :=
  struct_needs (needs_right (needs_right (needs_right (needs_field rfl)))) h
theorem modl_needs {l : List (String × J)} (h : l.lookup "model_name" = none) : ModlData.json.de (.obj l) = none :=
  struct_needs (needs_right (needs_right (needs_left (needs_field rfl)))) h
theorem matl_needs {l : List (String × J)} (h : l.lookup "entries" = none) : MatlData.json.de (.obj l) = none :=
  struct_needs (needs_right (needs_right (needs_field rfl))) h
theorem matl_needs' {l : List (String × J)} (h : l.lookup "major_version" = none) : MatlData.json.de (.obj l) = none :=
  struct_needs (needs_left (needs_field rfl)) h
theorem hlpb_needs {l : List (String × J)} (h : l.lookup "aim_constraints" = none) : HlpbData.json.de (.obj l) = none :=
  struct_needs (needs_right (needs_right (needs_left (needs_field rfl)))) h
theorem meshExData_needs {l : List (String × J)} (h : l.lookup "mesh_object_groups" = none) : MeshExData.json.de (.obj l) = none :=
  struct_needs (needs_field rfl) h
theorem adjData_needs {l : List (String × J)} (h : l.lookup "entries" = none) : AdjData.json.de (.obj l) = none :=
  struct_needs (needs_field rfl) h
theorem adjEntry_needs {l : List (String × J)} (h : l.lookup "mesh_object_index" = none) : AdjEntryData.json.de (.obj l) = none :=
  struct_needs (needs_left (needs_field rfl)) h

theorem exact_back (fin : α → Bool) (v : α) : (JSpec.exact fin).back v = bif fin v then some v else none := rfl

theorem matl_not_adj (v : MatlData) (h : v.finite = false) : AdjData.json.de (MatlData.json.ser v) = none := by
  cases he : v.entries with
  | nil =>
    rw [MatlData.finite, he] at h
    cases h
  | cons e es =>
    have h1 : AdjEntryData.json.de (MatlData.MatlEntryData.json.ser e) = none := adjEntry_needs rfl
    have h2 : JCodec.deList AdjEntryData.json (v.entries.map MatlData.MatlEntryData.json.ser) = none := by
      rw [he, List.map_cons, JCodec.deList, h1]
    change (JCodec.struct (JRec.field "entries" (JCodec.vec AdjEntryData.json)) _ _).de (.obj _) = none
    simp only [JCodec.struct]
    split
    · rfl
    · change Option.map _ (JCodec.deList AdjEntryData.json (v.entries.map MatlData.MatlEntryData.json.ser)) = none
      rw [h2]
      rfl

theorem dataFile_back (f : DataFile) : DataFile.fromJson f.toJson = bif fileFinite f then some f else none := by
  cases f with
  | mesh v =>
    have h := MeshData.json_law.back v
    have e2 : SkelData.json.de (MeshData.json.ser v) = none := skel_needs rfl
    have e3 : AnimData.json.de (MeshData.json.ser v) = none := anim_needs rfl
    have e4 : ModlData.json.de (MeshData.json.ser v) = none := modl_needs rfl
    have e5 : MatlData.json.de (MeshData.json.ser v) = none := matl_needs rfl
    have e6 : HlpbData.json.de (MeshData.json.ser v) = none := hlpb_needs rfl
    have e7 : MeshExData.json.de (MeshData.json.ser v) = none := meshExData_needs rfl
    have e8 : AdjData.json.de (MeshData.json.ser v) = none := adjData_needs rfl
    simp only [DataFile.fromJson, DataFile.toJson, h, e2, e3, e4, e5, e6, e7, e8, exact_back, fileFinite]
    cases v.finite <;> rfl
  | skel v =>
    have h := SkelData.json_law.back v
    have e1 : MeshData.json.de (SkelData.json.ser v) = none := mesh_needs rfl
    have e3 : AnimData.json.de (SkelData.json.ser v) = none := anim_needs rfl
    have e4 : ModlData.json.de (SkelData.json.ser v) = none := modl_needs rfl
    have e5 : MatlData.json.de (SkelData.json.ser v) = none := matl_needs rfl
    have e6 : HlpbData.json.de (SkelData.json.ser v) = none := hlpb_needs rfl
    have e7 : MeshExData.json.de (SkelData.json.ser v) = none := meshExData_needs rfl
    have e8 : AdjData.json.de (SkelData.json.ser v) = none := adjData_needs rfl
    simp only [DataFile.fromJson, DataFile.toJson, h, e1, e3, e4, e5, e6, e7, e8, exact_back, fileFinite]
    cases v.finite <;> rfl
  | anim v =>
    have h := AnimData.json_law.back v
    have e1 : MeshData.json.de (AnimData.json.ser v) = none := mesh_needs rfl
    have e2 : SkelData.json.de (AnimData.json.ser v) = none := skel_needs rfl
    have e4 : ModlData.json.de (AnimData.json.ser v) = none := modl_needs rfl
    have e5 : MatlData.json.de (AnimData.json.ser v) = none := matl_needs rfl
    have e6 : HlpbData.json.de (AnimData.json.ser v) = none := hlpb_needs rfl
    have e7 : MeshExData.json.de (AnimData.json.ser v) = none := meshExData_needs rfl
    have e8 : AdjData.json.de (AnimData.json.ser v) = none := adjData_needs rfl
    simp only [DataFile.fromJson, DataFile.toJson, h, e1, e2, e4, e5, e6, e7, e8, exact_back, fileFinite]
    cases v.finite <;> rfl
  | modl v =>
    have h := ModlData.json_law.back v
    have e1 : MeshData.json.de (ModlData.json.ser v) = none := mesh_needs rfl
    have e2 : SkelData.json.de (ModlData.json.ser v) = none := skel_needs rfl
    have e3 : AnimData.json.de (ModlData.json.ser v) = none := anim_needs rfl
    simp only [DataFile.fromJson, DataFile.toJson, h, e1, e2, e3, exact_back, fileFinite]
    rfl
  | matl v =>
    have h := MatlData.json_law.back v
    have e1 : MeshData.json.de (MatlData.json.ser v) = none := mesh_needs rfl
    have e2 : SkelData.json.de (MatlData.json.ser v) = none := skel_needs rfl
    have e3 : AnimData.json.de (MatlData.json.ser v) = none := anim_needs rfl
    have e4 : ModlData.json.de (MatlData.json.ser v) = none := modl_needs rfl
    have e6 : HlpbData.json.de (MatlData.json.ser v) = none := hlpb_needs rfl
    have e7 : MeshExData.json.de (MatlData.json.ser v) = none := meshExData_needs rfl
    have e8 := matl_not_adj v
    simp only [DataFile.fromJson, DataFile.toJson, h, e1, e2, e3, e4, e6, e7, exact_back, fileFinite]
    cases hf : v.finite with
    | true => rfl
    | false =>
      rw [e8 hf]
      rfl
  | hlpb v =>
    have h := HlpbData.json_law.back v
    have e1 : MeshData.json.de (HlpbData.json.ser v) = none := mesh_needs rfl
    have e2 : SkelData.json.de (HlpbData.json.ser v) = none := skel_needs rfl
    have e3 : AnimData.json.de (HlpbData.json.ser v) = none := anim_needs rfl
    have e4 : ModlData.json.de (HlpbData.json.ser v) = none := modl_needs rfl
    have e5 : MatlData.json.de (HlpbData.json.ser v) = none := matl_needs rfl
    have e7 : MeshExData.json.de (HlpbData.json.ser v) = none := meshExData_needs rfl
    have e8 : AdjData.json.de (HlpbData.json.ser v) = none := adjData_needs rfl
    simp only [DataFile.fromJson, DataFile.toJson, h, e1, e2, e3, e4, e5, e7, e8, exact_back, fileFinite]
    cases v.finite <;> rfl
  | meshEx v =>
    have h := MeshExData.json_law.back v
    have e1 : MeshData.json.de (MeshExData.json.ser v) = none := mesh_needs rfl
    have e2 : SkelData.json.de (MeshExData.json.ser v) = none := skel_needs rfl
    have e3 : AnimData.json.de (MeshExData.json.ser v) = none := anim_needs rfl
    have e4 : ModlData.json.de (MeshExData.json.ser v) = none := modl_needs rfl
    have e5 : MatlData.json.de (MeshExData.json.ser v) = none := matl_needs rfl
    have e6 : HlpbData.json.de (MeshExData.json.ser v) = none := hlpb_needs rfl
    have e8 : AdjData.json.de (MeshExData.json.ser v) = none := adjData_needs rfl
    simp only [DataFile.fromJson, DataFile.toJson, h, e1, e2, e3, e4, e5, e6, e8, exact_back, fileFinite]
    cases v.finite <;> rfl
  | adj v =>
    have h := AdjData.json_law.back v
    have e1 : MeshData.json.de (AdjData.json.ser v) = none := mesh_needs rfl
    have e2 : SkelData.json.de (AdjData.json.ser v) = none := skel_needs rfl
    have e3 : AnimData.json.de (AdjData.json.ser v) = none := anim_needs rfl
    have e4 : ModlData.json.de (AdjData.json.ser v) = none := modl_needs rfl
    have e5 : MatlData.json.de (AdjData.json.ser v) = none := matl_needs' rfl
    have e6 : HlpbData.json.de (AdjData.json.ser v) = none := hlpb_needs rfl
    have e7 : MeshExData.json.de (AdjData.json.ser v) = none := meshExData_needs rfl
    simp only [DataFile.fromJson, DataFile.toJson, h, e1, e2, e3, e4, e5, e6, e7, exact_back, fileFinite]
    cases v.finite <;> rfl

/-! ## C64 -/

/-- C64: the JSON of data is read back as the same data of the same type. Data with an infinity or a NaN is not accepted, as
no type. -/
theorem C64_round_trip (f : DataFile) :
    (fileFinite f = true → DataFile.fromJson f.toJson = some f) ∧
    (fileFinite f = false → DataFile.fromJson f.toJson = none) := by
  rw [dataFile_back]
  exact ⟨fun h => by rw [h]; rfl, fun h => by rw [h]; rfl⟩

/-- C64: different data has different JSON. -/
theorem C64_injective (f g : DataFile) (hf : fileFinite f = true) (hg : fileFinite g = true) (h : f.toJson = g.toJson) :
    f = g := by
  have := (C64_round_trip f).1 hf
  rw [h, (C64_round_trip g).1 hg] at this
  exact (Option.some.inj this).symm

/-- C64: the order of the entries in the objects of the text does not matter. -/
theorem C64_order (i j : J) (h : J.Reordered i j) : DataFile.fromJson i = DataFile.fromJson j := by
  simp only [DataFile.fromJson, JOrd.reordered MeshData.json h, JOrd.reordered SkelData.json h, JOrd.reordered AnimData.json h,
    JOrd.reordered ModlData.json h, JOrd.reordered MatlData.json h, JOrd.reordered HlpbData.json h,
    JOrd.reordered MeshExData.json h, JOrd.reordered AdjData.json h]

/-- C64: ModlData is always accepted. AdjData is if its indices are numbers of the machine. -/
theorem C64_accepted : (∀ d : ModlData, DataFile.fromJson (DataFile.modl d).toJson = some (.modl d)) ∧
    ∀ d : AdjData, (∀ e ∈ d.entries, e.mesh_object_index < 2 ^ 64) → DataFile.fromJson (DataFile.adj d).toJson = some (.adj d) := by
  refine ⟨fun d => (C64_round_trip _).1 rfl, fun d h => (C64_round_trip _).1 ?_⟩
  simp only [fileFinite, AdjData.finite, List.all_eq_true, AdjEntryData.finite, isUsize, decide_eq_true_eq]
  exact h

/-- C64: the JSON of ShdrData, which no tool converts, is read back as the same. -/
theorem C64_shdr (d : ShdrData) : ShdrData.json.de (ShdrData.json.ser d) = some d := ShdrData.json_law.back d

/-! ### The tool -/

/-- C64: the tool writes exactly what saving the data writes, with the extension of its type. It fails if the data is not
finite or cannot be saved. -/
theorem C64_written (O : DataOps) (f : DataFile) (ext : String) (b : Bytes) :
    DataFile.fromJsonFile O f.toJson = some (ext, b) ↔ fileFinite f = true ∧ ext = f.extension ∧ f.save O = .ok b := by
  rw [DataFile.fromJsonFile, dataFile_back]
  cases fileFinite f with
  | false => simp
  | true =>
    simp only [cond_true, true_and]
    cases f.save O with
    | error e => simp
    | ok b' =>
      simp only [Option.some.injEq, Prod.mk.injEq, Except.ok.injEq]
      exact ⟨fun ⟨h1, h2⟩ => ⟨h1.symm, h2⟩, fun ⟨h1, h2⟩ => ⟨h1.symm, h2⟩⟩

/-- The data of a file. -/
def Opens (O : DataOps) (ext : String) (b : Bytes) : DataFile → Prop
  | .mesh v => ext = "numshb" ∧ MeshData.read O.conv b = .ok v
  | .skel v => ext = "nusktb" ∧ SkelData.read b = .ok v
  | .anim v => ext = "nuanmb" ∧ AnimData.readAny O.floats O.order O.checks b = some (.ok v)
  | .modl v => ext = "numdlb" ∧ ModlData.read b = .ok v
  | .matl v => ext = "numatb" ∧ MatlData.read b = .ok v
  | .hlpb v => ext = "nuhlpb" ∧ HlpbData.read b = .ok v
  | .meshEx v => ext = "numshexb" ∧ MeshExData.read b = .ok v
  | .adj v => ext = "adjb" ∧ AdjData.read b = .ok v

theorem shown_json {f : α → DataFile} {r : Except DataErr α} {j : J} (h : DataFile.shown f r = .json j) :
    ∃ v, r = .ok v ∧ j = (f v).toJson := by
  cases r with
  | error e => cases h
  | ok v => cases h; exact ⟨v, rfl, rfl⟩

/-- C64: the tool shows the JSON of the data in the file. -/
theorem C64_shown (O : DataOps) (ext : String) (b : Bytes) (j : J) :
    DataFile.toJsonFile O ext b = .json j ↔ ∃ f, Opens O ext b f ∧ j = f.toJson := by
  constructor
  · intro h
    unfold DataFile.toJsonFile at h
    split at h
    · obtain ⟨v, h1, h2⟩ := shown_json h
      exact ⟨.mesh v, ⟨by assumption, h1⟩, h2⟩
    split at h
    · obtain ⟨v, h1, h2⟩ := shown_json h
      exact ⟨.skel v, ⟨by assumption, h1⟩, h2⟩
    split at h
    · split at h
      · cases h
      · obtain ⟨v, h1, h2⟩ := shown_json h
        rename_i hr
        exact ⟨.anim v, ⟨by assumption, by rw [hr, h1]⟩, h2⟩
    split at h
    · obtain ⟨v, h1, h2⟩ := shown_json h
      exact ⟨.modl v, ⟨by assumption, h1⟩, h2⟩
    split at h
    · obtain ⟨v, h1, h2⟩ := shown_json h
      exact ⟨.matl v, ⟨by assumption, h1⟩, h2⟩
    split at h
    · obtain ⟨v, h1, h2⟩ := shown_json h
      exact ⟨.hlpb v, ⟨by assumption, h1⟩, h2⟩
    split at h
    · obtain ⟨v, h1, h2⟩ := shown_json h
      exact ⟨.adj v, ⟨by assumption, h1⟩, h2⟩
    split at h
    · obtain ⟨v, h1, h2⟩ := shown_json h
      exact ⟨.meshEx v, ⟨by assumption, h1⟩, h2⟩
    · cases h
  · rintro ⟨f, hf, rfl⟩
    cases f <;> (obtain ⟨rfl, h⟩ := hf; simp [DataFile.toJsonFile, h, DataFile.shown])

theorem opens_extension {O : DataOps} {ext : String} {b : Bytes} {f : DataFile} (h : Opens O ext b f) : ext = f.extension := by
  cases f <;> exact h.1

/-- C64: a file, shown as JSON and converted back, gives a file with the same extension and the bytes of opening and saving
the file. -/
theorem C64_convert (O : DataOps) (ext : String) (b : Bytes) (j : J) (h : DataFile.toJsonFile O ext b = .json j) :
    ∃ f, Opens O ext b f ∧ (fileFinite f = false → DataFile.fromJsonFile O j = none) ∧
      (fileFinite f = true → ∀ e b', DataFile.fromJsonFile O j = some (e, b') ↔ e = ext ∧ f.save O = .ok b') := by
  obtain ⟨f, hf, rfl⟩ := (C64_shown O ext b j).mp h
  refine ⟨f, hf, fun hn => ?_, fun hn e b' => ?_⟩
  · rw [DataFile.fromJsonFile, (C64_round_trip f).2 hn]
  · rw [C64_written, opens_extension hf]
    simp [hn]

/-- C64: for Skel, Modl, Matl, Hlpb, MeshEx and Adj files the new file has the same data. -/
theorem C64_same_data (O : DataOps) (ext : String) (b b' : Bytes) (j : J) (hx : ext ≠ "numshb" ∧ ext ≠ "nuanmb")
    (h : DataFile.toJsonFile O ext b = .json j) (hw : DataFile.fromJsonFile O j = some (ext, b')) :
    DataFile.toJsonFile O ext b' = .json j := by
  obtain ⟨f, hf, rfl⟩ := (C64_shown O ext b j).mp h
  obtain ⟨-, -, hs⟩ := (C64_written O f ext b').mp hw
  refine (C64_shown O ext b' _).mpr ⟨f, ?_, rfl⟩
  cases f with
  | mesh v => exact absurd hf.1 hx.1
  | anim v => exact absurd hf.1 hx.2
  | skel v => exact ⟨hf.1, C47_skel O.matrices b v hf.2 b' hs⟩
  | modl v => exact ⟨hf.1, C47_modl b v hf.2 b' hs⟩
  | matl v => exact ⟨hf.1, C47_matl b v hf.2 b' hs⟩
  | hlpb v => exact ⟨hf.1, C47_hlpb b v hf.2 b' hs⟩
  | meshEx v => exact ⟨hf.1, C47_meshex O.sphereOf b v hf.2 b' hs⟩
  | adj v => exact ⟨hf.1, C47_adj b v hf.2 b' hs⟩

/-! ### Unknown entries -/

/-- Only the entries of the fields matter. -/
class JLocal (r : JRec α) : Prop where
  de : ∀ {get get' : String → Option J}, (∀ n ∈ r.names, get n = get' n) → r.de get = r.de get'

instance {c : JCodec α} : JLocal (.field n c) where
  de h := by simp only [JRec.field, h n (by simp [JRec.field])]

instance {c : JCodec α} {d : α} : JLocal (.fieldOr n c d) where
  de h := by simp only [JRec.fieldOr, h n (by simp [JRec.fieldOr])]

instance {r : JRec α} {s : JRec β} [h1 : JLocal r] [h2 : JLocal s] : JLocal (r.and s) where
  de h := by
    simp only [JRec.and]
    rw [h1.de (fun n hn => h n (List.mem_append_left _ hn)), h2.de (fun n hn => h n (List.mem_append_right _ hn))]

theorem lookup_unknown {e : String × J} {n : String} (h : n ≠ e.1) (l₂ : List (String × J)) :
    ∀ l₁ : List (String × J), (l₁ ++ e :: l₂).lookup n = (l₁ ++ l₂).lookup n
  | [] => by
    have : (n == e.1) = false := by simpa using h
    simp [lookup_cons', this]
  | z :: l₁ => by simp only [List.cons_append, lookup_cons', lookup_unknown h l₂ l₁]

theorem struct_unknown {r : JRec β} [hr : JLocal r] {f : α → β} {g : β → α} {e : String × J} (h : e.1 ∉ r.names)
    (l₁ l₂ : List (String × J)) :
    (JCodec.struct r f g).de (.obj (l₁ ++ e :: l₂)) = (JCodec.struct r f g).de (.obj (l₁ ++ l₂)) := by
  have ne : ∀ n ∈ r.names, n ≠ e.1 := fun n hn he => h (he ▸ hn)
  have e1 : JCodec.duplicate r.names (l₁ ++ e :: l₂) = JCodec.duplicate r.names (l₁ ++ l₂) := by
    simp only [JCodec.duplicate]
    rw [Bool.eq_iff_iff, List.any_eq_true, List.any_eq_true]
    have : ∀ n ∈ r.names, (l₁ ++ e :: l₂).filter (fun x => x.1 == n) = (l₁ ++ l₂).filter (fun x => x.1 == n) := by
      intro n hn
      have : (e.1 == n) = false := by simpa using (ne n hn).symm
      simp [List.filter_append, this]
    constructor <;> rintro ⟨n, hn, hd⟩ <;> refine ⟨n, hn, ?_⟩ <;> rw [this n hn] at * <;> exact hd
  simp only [JCodec.struct, e1, hr.de (fun n hn => lookup_unknown (ne n hn) l₂ l₁)]

/-- The names of the fields of the types of files. -/
def fieldNames : List String :=
  ["major_version", "minor_version", "objects", "bones", "final_frame_index", "groups", "model_name", "skeleton_file_name",
   "material_file_names", "animation_file_name", "mesh_file_name", "entries", "aim_constraints", "orient_constraints",
   "mesh_object_groups"]

/-- C64: entries with other names are ignored. -/
theorem C64_unknown (e : String × J) (l₁ l₂ : List (String × J)) (h : e.1 ∉ fieldNames) :
    DataFile.fromJson (.obj (l₁ ++ e :: l₂)) = DataFile.fromJson (.obj (l₁ ++ l₂)) := by
  have k : ∀ names : List String, (∀ n ∈ names, n ∈ fieldNames) → e.1 ∉ names := fun names hn he => h (hn _ he)
  have e1 : MeshData.json.de (.obj (l₁ ++ e :: l₂)) = MeshData.json.de (.obj (l₁ ++ l₂)) :=
    struct_unknown (k ["major_version", "minor_version", "objects"] (by decide)) l₁ l₂
  have e2 : SkelData.json.de (.obj (l₁ ++ e :: l₂)) = SkelData.json.de (.obj (l₁ ++ l₂)) :=
    struct_unknown (k ["major_version", "minor_version", "bones"] (by decide)) l₁ l₂
  have e3 : AnimData.json.de (.obj (l₁ ++ e :: l₂)) = AnimData.json.de (.obj (l₁ ++ l₂)) :=
    struct_unknown (k ["major_version", "minor_version", "final_frame_index", "groups"] (by decide)) l₁ l₂
  have e4 : ModlData.json.de (.obj (l₁ ++ e :: l₂)) = ModlData.json.de (.obj (l₁ ++ l₂)) :=
    struct_unknown (k ["major_version", "minor_version", "model_name", "skeleton_file_name", "material_file_names",
      "animation_file_name", "mesh_file_name", "entries"] (by decide)) l₁ l₂
  have e5 : MatlData.json.de (.obj (l₁ ++ e :: l₂)) = MatlData.json.de (.obj (l₁ ++ l₂)) :=
    struct_unknown (k ["major_version", "minor_version", "entries"] (by decide)) l₁ l₂
  have e6 : HlpbData.json.de (.obj (l₁ ++ e :: l₂)) = HlpbData.json.de (.obj (l₁ ++ l₂)) :=
    struct_unknown (k ["major_version", "minor_version", "aim_constraints", "orient_constraints"] (by decide)) l₁ l₂
  have e7 : MeshExData.json.de (.obj (l₁ ++ e :: l₂)) = MeshExData.json.de (.obj (l₁ ++ l₂)) :=
    struct_unknown (k ["mesh_object_groups"] (by decide)) l₁ l₂
  have e8 : AdjData.json.de (.obj (l₁ ++ e :: l₂)) = AdjData.json.de (.obj (l₁ ++ l₂)) :=
    struct_unknown (k ["entries"] (by decide)) l₁ l₂
  simp only [DataFile.fromJson, e1, e2, e3, e4, e5, e6, e7, e8]

/-! ### Missing entries -/

theorem lookup_filter (keep : String → Bool) (n : String) : ∀ l : List (String × J),
    (l.filter (fun e => keep e.1)).lookup n = if keep n then l.lookup n else none
  | [] => by simp
  | z :: l => by
    have ih := lookup_filter keep n l
    rw [List.filter_cons]
    by_cases hz : n = z.1
    · subst hz
      cases hk : keep z.1 with
      | true => simp [lookup_cons']
      | false => simpa [lookup_cons', hk] using ih
    · have hz' : (n == z.1) = false := by simpa using hz
      cases hk : keep z.1 with
      | true => simpa [lookup_cons', hz'] using ih
      | false => simpa [lookup_cons', hz'] using ih

theorem struct_keep {r : JRec β} {f : α → β} {g : β → α} (keep : String → Bool) {l : List (String × J)}
    (hn : (l.map (·.1)).Nodup) :
    (JCodec.struct r f g).de (.obj (l.filter (fun e => keep e.1))) =
      (r.de (fun n => if keep n then l.lookup n else none)).map g := by
  have h : ((l.filter (fun e => keep e.1)).map (·.1)).Nodup := List.Nodup.sublist (List.filter_sublist.map _) hn
  simp only [JCodec.struct, duplicate_false h, lookup_filter]
  rfl

theorem fieldOr_keep {c : JCodec α} {n : String} {d x : α} {get : String → Option J} {b : Bool}
    (hg : get n = if b then some (c.ser x) else none) (h : c.de (c.ser x) = some x) :
    (JRec.fieldOr n c d).de get = some (if b then x else d) := by
  cases b with
  | true => simpa [JRec.fieldOr, hg] using h
  | false => simp [JRec.fieldOr, hg]

/-- C64: of a sampler, any of the entries may be missing. The fields have these values then. -/
theorem C64_sampler (v : MatlData.SamplerData) (hv : v.finite = true) (l : List (String × J))
    (hl : MatlData.SamplerData.json.ser v = .obj l) (keep : String → Bool) :
    MatlData.SamplerData.json.de (.obj (l.filter (fun e => keep e.1))) = some {
      wraps := if keep "wraps" then v.wraps else .ClampToEdge
      wrapt := if keep "wrapt" then v.wrapt else .ClampToEdge
      wrapr := if keep "wrapr" then v.wrapr else .ClampToEdge
      min_filter := if keep "min_filter" then v.min_filter else .LinearMipmapLinear
      mag_filter := if keep "mag_filter" then v.mag_filter else .Linear
      border_color := if keep "border_color" then v.border_color else ⟨0, 0, 0, 0⟩
      lod_bias := if keep "lod_bias" then v.lod_bias else 0
      max_anisotropy := if keep "max_anisotropy" then v.max_anisotropy else .One } := by
  cases hl
  rw [MatlData.SamplerData.finite, Bool.and_eq_true] at hv
  have hc : Color4f.json.de (Color4f.json.ser v.border_color) = some v.border_color := by
    rw [Color4f.json_exact.back, exact_back, hv.1]; rfl
  have hb : JCodec.f32.de (JCodec.f32.ser v.lod_bias) = some v.lod_bias := by
    rw [f32_law.back, JSpec.back]; simp only [hv.2]; rfl
  refine (struct_keep keep ?_).trans ?_
  · show ["wraps", "wrapt", "wrapr", "min_filter", "mag_filter", "border_color", "lod_bias",
      "max_anisotropy"].Nodup
    decide
  simp only [JRec.and]
  rw [fieldOr_keep (x := v.wraps) (b := keep "wraps") rfl (Matl.WrapMode.json_law.back _),
    fieldOr_keep (x := v.wrapt) (b := keep "wrapt") rfl (Matl.WrapMode.json_law.back _),
    fieldOr_keep (x := v.wrapr) (b := keep "wrapr") rfl (Matl.WrapMode.json_law.back _),
    fieldOr_keep (x := v.min_filter) (b := keep "min_filter") rfl (Matl.MinFilter.json_law.back _),
    fieldOr_keep (x := v.mag_filter) (b := keep "mag_filter") rfl (Matl.MagFilter.json_law.back _),
    fieldOr_keep (x := v.border_color) (b := keep "border_color") rfl hc,
    fieldOr_keep (x := v.lod_bias) (b := keep "lod_bias") rfl hb,
    fieldOr_keep (x := v.max_anisotropy) (b := keep "max_anisotropy") rfl (MatlData.maxAnisotropy_law.back _)]
  rfl

/-- C64: the same for a blend state. -/
theorem C64_blend_state (v : MatlData.BlendStateData) (l : List (String × J))
    (hl : MatlData.BlendStateData.json.ser v = .obj l) (keep : String → Bool) :
    MatlData.BlendStateData.json.de (.obj (l.filter (fun e => keep e.1))) = some {
      source_color := if keep "source_color" then v.source_color else .One
      color_operation := if keep "color_operation" then v.color_operation else .Add
      destination_color := if keep "destination_color" then v.destination_color else .Zero
      source_alpha := if keep "source_alpha" then v.source_alpha else .One
      alpha_operation := if keep "alpha_operation" then v.alpha_operation else .Add
      destination_alpha := if keep "destination_alpha" then v.destination_alpha else .Zero
      alpha_sample_to_coverage := if keep "alpha_sample_to_coverage" then v.alpha_sample_to_coverage else false } := by
  cases hl
  refine (struct_keep keep ?_).trans ?_
  · show ["source_color", "color_operation", "destination_color", "source_alpha",
      "alpha_operation", "destination_alpha", "alpha_sample_to_coverage"].Nodup
    decide
  simp only [JRec.and]
  rw [fieldOr_keep (x := v.source_color) (b := keep "source_color") rfl (Matl.BlendFactor.json_law.back _),
    fieldOr_keep (x := v.color_operation) (b := keep "color_operation") rfl (Matl.BlendOperation.json_law.back _),
    fieldOr_keep (x := v.destination_color) (b := keep "destination_color") rfl (Matl.BlendFactor.json_law.back _),
    fieldOr_keep (x := v.source_alpha) (b := keep "source_alpha") rfl (Matl.BlendFactor.json_law.back _),
    fieldOr_keep (x := v.alpha_operation) (b := keep "alpha_operation") rfl (Matl.BlendOperation.json_law.back _),
    fieldOr_keep (x := v.destination_alpha) (b := keep "destination_alpha") rfl (Matl.BlendFactor.json_law.back _),
    fieldOr_keep (x := v.alpha_sample_to_coverage) (b := keep "alpha_sample_to_coverage") rfl (JLaw.boolean.back _)]
  rfl

theorem field_keep {c : JCodec α} {n : String} {x : α} {get : String → Option J} {b : Bool}
    (hg : get n = if b then some (c.ser x) else none) (hb : b = true) (h : c.de (c.ser x) = some x) :
    (JRec.field n c).de get = some x := by
  subst hb
  simpa [JRec.field, hg] using h

theorem vec_back {c : JCodec α} {fin : α → Bool} (h : JLaw c (.exact fin)) {l : List α} (hl : l.all fin = true) :
    (JCodec.vec c).de ((JCodec.vec c).ser l) = some l := by
  rw [h.vec.back, JSpec.back]
  simp only [JSpec.list, JSpec.exact]
  rw [hl]
  simp

/-- C64: files from before `uv_transforms` was added are accepted, with no UV transforms. -/
theorem C64_uv_transforms (v : MatlData.MatlEntryData) (hv : v.finite = true) (l : List (String × J))
    (hl : MatlData.MatlEntryData.json.ser v = .obj l) (keep : String → Bool) (hk : ∀ n, n ≠ "uv_transforms" → keep n = true) :
    MatlData.MatlEntryData.json.de (.obj (l.filter (fun e => keep e.1))) =
      some { v with uv_transforms := if keep "uv_transforms" then v.uv_transforms else [] } := by
  cases hl
  simp only [MatlData.MatlEntryData.finite, Bool.and_eq_true] at hv
  obtain ⟨⟨⟨⟨h1, h2⟩, h3⟩, h4⟩, h5⟩ := hv
  refine (struct_keep keep ?_).trans ?_
  · show ["material_label", "shader_label", "blend_states", "floats", "booleans", "vectors", "rasterizer_states", "samplers",
      "textures", "uv_transforms"].Nodup
    decide
  simp only [JRec.and]
  rw [field_keep (x := v.material_label) (b := keep "material_label") rfl (hk _ (by decide)) (JLaw.string.back _),
    field_keep (x := v.shader_label) (b := keep "shader_label") rfl (hk _ (by decide)) (JLaw.string.back _),
    field_keep (x := v.blend_states) (b := keep "blend_states") rfl (hk _ (by decide)) (vec_back MatlData.BlendStateParam.json_law (all_true _)),
    field_keep (x := v.floats) (b := keep "floats") rfl (hk _ (by decide)) (vec_back MatlData.FloatParam.json_law h1),
    field_keep (x := v.booleans) (b := keep "booleans") rfl (hk _ (by decide)) (vec_back MatlData.BooleanParam.json_law (all_true _)),
    field_keep (x := v.vectors) (b := keep "vectors") rfl (hk _ (by decide)) (vec_back MatlData.Vector4Param.json_law h2),
    field_keep (x := v.rasterizer_states) (b := keep "rasterizer_states") rfl (hk _ (by decide))
      (vec_back MatlData.RasterizerStateParam.json_law h3),
    field_keep (x := v.samplers) (b := keep "samplers") rfl (hk _ (by decide)) (vec_back MatlData.SamplerParam.json_law h4),
    field_keep (x := v.textures) (b := keep "textures") rfl (hk _ (by decide)) (vec_back MatlData.TextureParam.json_law (all_true _)),
    fieldOr_keep (x := v.uv_transforms) (b := keep "uv_transforms") rfl (vec_back MatlData.UvTransformParam.json_law h5)]
  rfl

/-- A sampler whose entry `max_anisotropy` is `j`. -/
def withAnisotropy (j : J) (l : List (String × J)) : List (String × J) :=
  l.map (fun e => if e.1 = "max_anisotropy" then (e.1, j) else e)

/-- C64: `null` for the anisotropy, as in older JSON, means no anisotropic filtering. -/
theorem C64_anisotropy (v : MatlData.SamplerData) (hv : v.finite = true) (l : List (String × J))
    (hl : MatlData.SamplerData.json.ser v = .obj l) :
    MatlData.SamplerData.json.de (.obj (withAnisotropy .null l)) = some { v with max_anisotropy := .One } := by
  cases hl
  rw [MatlData.SamplerData.finite, Bool.and_eq_true] at hv
  have hc : Color4f.json.de (Color4f.json.ser v.border_color) = some v.border_color := by
    rw [Color4f.json_exact.back, exact_back, hv.1]; rfl
  have hb : JCodec.f32.de (JCodec.f32.ser v.lod_bias) = some v.lod_bias := by
    rw [f32_law.back, JSpec.back]; simp only [hv.2]; rfl
  have hn : MatlData.maxAnisotropy.de .null = some .One := rfl
  have key : ∀ l : List (String × J), (l.map (·.1)).Nodup → l = [("wraps", Matl.WrapMode.json.ser v.wraps),
      ("wrapt", Matl.WrapMode.json.ser v.wrapt), ("wrapr", Matl.WrapMode.json.ser v.wrapr),
      ("min_filter", Matl.MinFilter.json.ser v.min_filter), ("mag_filter", Matl.MagFilter.json.ser v.mag_filter),
      ("border_color", Color4f.json.ser v.border_color), ("lod_bias", JCodec.f32.ser v.lod_bias), ("max_anisotropy", .null)] →
      MatlData.SamplerData.json.de (.obj l) = some { v with max_anisotropy := .One } := by
    intro l hd hl
    simp only [MatlData.SamplerData.json, JCodec.struct, duplicate_false hd]
    have d : ∀ {α : Type} {c : JCodec α} {n : String} {d x : α} {j : J}, l.lookup n = some j → c.de j = some x →
        (JRec.fieldOr n c d).de (fun n => l.lookup n) = some x := by
      intro _ c n d x j h1 h2
      simp only [JRec.fieldOr, h1, h2]
    simp only [JRec.and]
    subst hl
    rw [d rfl (Matl.WrapMode.json_law.back v.wraps), d rfl (Matl.WrapMode.json_law.back v.wrapt),
      d rfl (Matl.WrapMode.json_law.back v.wrapr), d rfl (Matl.MinFilter.json_law.back v.min_filter),
      d rfl (Matl.MagFilter.json_law.back v.mag_filter), d rfl hc, d rfl hb, d rfl hn]
    rfl
  refine key _ ?_ rfl
  show ["wraps", "wrapt", "wrapr", "min_filter", "mag_filter", "border_color", "lod_bias", "max_anisotropy"].Nodup
  decide

/-! ### Not finite -/

def jsonHlpb : HlpbData where
  major_version := 1
  minor_version := 1
  aim_constraints := []
  orient_constraints := [{
    name := "o", parent_bone_name1 := "a", parent_bone_name2 := "a", source_bone_name := "b", target_bone_name := "c", unk_type := 1
    constraint_axes := ⟨0x3f800000, 0x3f800000, 0x3f800000⟩, quat1 := ⟨0, 0, 0, 0x3f800000⟩, quat2 := ⟨0, 0, 0, 0x7fc00000⟩
    range_min := ⟨0, 0, 0⟩, range_max := ⟨0, 0, 0⟩ }]

/-- C64: a file with a NaN is shown as JSON without problems. Converting the JSON back fails. -/
theorem C64_nan (O : DataOps) : ∃ (b : Bytes) (j : J), DataFile.toJsonFile O "nuhlpb" b = .json j ∧
    DataFile.fromJsonFile O j = none := by
  have hw : isOk jsonHlpb.write = true := by decide +kernel
  obtain ⟨b, hb⟩ := isOk_iff.mp hw
  have hr := C45_hlpb jsonHlpb b hb
  refine ⟨b, _, (C64_shown O "nuhlpb" b _).mpr ⟨.hlpb _, ⟨rfl, hr⟩, rfl⟩, ?_⟩
  rw [DataFile.fromJsonFile, (C64_round_trip _).2 (by decide +kernel)]

/-! ### Examples -/

def jsonMatl : MatlData where
  major_version := 1
  minor_version := 6
  entries := [{
    material_label := "m", shader_label := "SFX_PBS_0100000008008269_opaque", blend_states := [⟨⟨6, by decide⟩, MatlData.BlendStateData.default⟩]
    floats := [⟨⟨8, by decide⟩, 0x3f000000⟩], booleans := [], vectors := [⟨⟨0, by decide⟩, ⟨0, 0, 0, 0x3f800000⟩⟩]
    rasterizer_states := [], samplers := [⟨⟨9, by decide⟩, MatlData.SamplerData.default⟩], textures := [⟨⟨10, by decide⟩, "/common/t"⟩]
    uv_transforms := [] }]

example : fileFinite (.matl jsonMatl) = true := by decide +kernel
example : fileFinite (.hlpb jsonHlpb) = false := by decide +kernel
example : MatlData.SamplerData.default.finite = true := by decide
example : J.Reordered (.obj [("entries", .arr []), ("x", .null)]) (.obj [("x", .null), ("entries", .arr [])]) :=
  .step (.refl _) (.swap [] [] _ _ (by decide))
example : "comment" ∉ fieldNames := by decide

end Verif.Props
