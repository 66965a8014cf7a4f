import Verif.Json.TextDeep
import Verif.Json.Shortest
import Verif.Json.FormatsSmall
import Verif.Props.Disk
/-!
# C103: the text of JSON values and files

`toText P` is `serde_json::to_string_pretty` with a printer of floats for which C102 holds, `fromText` is `serde_json::from_str`.
-/

namespace Verif.Props
open Verif Verif.Json

/-! ## Values -/

/-- C103: a value with integers of 64 bits and finite floats is read back from its text if it is nested at most 127 deep. Otherwise its
text is rejected. -/
theorem C103_value (P : Nat → Nat × Int) (hP : Prints P) (j : J) (hf : j.fits = true) :
    (j.depth ≤ 127 → fromText (toText P j) = some j) ∧ (127 < j.depth → fromText (toText P j) = none) :=
  ⟨fromText_toText hP j hf, fromText_deep hP j hf⟩

/-- C103: different values have different texts. -/
theorem C103_different (P : Nat → Nat × Int) (hP : Prints P) (j k : J) (hj : j.fits = true ∧ j.depth ≤ 127)
    (hk : k.fits = true ∧ k.depth ≤ 127) (h : toText P j = toText P k) : j = k := by
  have e := fromText_toText hP j hj.1 hj.2
  rw [h, fromText_toText hP k hk.1 hk.2] at e
  exact (Option.some.inj e).symm

/-- The white space of JSON. -/
def IsSpace (c : Char) : Prop := c = ' ' ∨ c = '\n' ∨ c = '\t' ∨ c = '\r'

/-- C103: white space may be before and after the text. If other characters come after it, the whole text is rejected. The first of
them may not continue a number. -/
theorem C103_around (P : Nat → Nat × Int) (hP : Prints P) (j : J) (hf : j.fits = true) (hd : j.depth ≤ 127) (before after : List Char)
    (hb : ∀ c ∈ before, IsSpace c) (ha : ∀ c r, after = c :: r → c.isDigit = false ∧ c ≠ '.' ∧ c ≠ 'e' ∧ c ≠ 'E') :
    ((∀ c ∈ after, IsSpace c) → fromText (String.ofList (before ++ ((toText P j).toList ++ after))) = some j) ∧
    ((∃ c ∈ after, ¬ IsSpace c) → fromText (String.ofList (before ++ ((toText P j).toList ++ after))) = none) := by
  rw [fromText_around hP j hf hd hb ha]
  constructor
  · intro h
    rw [if_pos (skip_eq_nil.mpr h)]
  · rintro ⟨c, hc, hn⟩
    rw [if_neg fun e => hn (skip_eq_nil.mp e c hc)]

/-- C103: the text has no control characters except for the ends of lines, whatever the strings in it are. -/
theorem C103_characters (P : Nat → Nat × Int) (j : J) : ∀ c ∈ (toText P j).toList, 32 ≤ c.toNat ∨ c = '\n' := by
  rw [toText, String.toList_ofList]
  exact plain_pretty P 0 j

def exValue : J := .obj [("a\n\"\\", .arr [.null, .bool true, .num (-9223372036854775808), .num 18446744073709551615, .flt 0x3f000000]),
  ("", .obj []), ("é€😀", .str (String.singleton (Char.ofNat 1)))]

/-- A value whose hypotheses hold, and its text. -/
example : exValue.fits = true ∧ exValue.depth = 2 ∧ toText shortest exValue =
    "{\n  \"a\\n\\\"\\\\\": [\n    null,\n    true,\n    -9223372036854775808,\n    18446744073709551615,\n    0.5\n  ],\n  \"\": {},\n" ++
    "  \"é€😀\": \"\\u0001\"\n}" := by decide +kernel

def nested : Nat → J
  | 0 => .null
  | n + 1 => .arr [nested n]

/-- Both cases of `C103_value` occur. -/
example : (nested 127).fits = true ∧ (nested 127).depth = 127 ∧ (nested 128).fits = true ∧ (nested 128).depth = 128 := by
  decide +kernel

/-! ## Files -/

theorem lib_small (f : JsonFile) : f.toJson.fits = true ∧ f.toJson.depth ≤ 127 := by
  cases f with
  | ssbh v => exact ⟨(JSmall.ok (c := Ssbh.json) v).1, Nat.le_trans (JSmall.ok (c := Ssbh.json) v).2 (by decide)⟩
  | meshEx v => exact ⟨(JSmall.ok (c := MeshEx.json) v).1, Nat.le_trans (JSmall.ok (c := MeshEx.json) v).2 (by decide)⟩
  | adj v => exact ⟨(JSmall.ok (c := Adj.json) v).1, Nat.le_trans (JSmall.ok (c := Adj.json) v).2 (by decide)⟩

/-- C103: what ssbh_lib_json prints for any file is read back as the same JSON value. -/
theorem C103_lib (P : Nat → Nat × Int) (hP : Prints P) (f : JsonFile) : fromText (toText P f.toJson) = some f.toJson :=
  fromText_toText hP _ (lib_small f).1 (lib_small f).2

/-- The indices are numbers that a 64 bit machine can have. -/
def MachineSized : DataFile → Prop
  | .skel v => ∀ b ∈ v.bones, ∀ p, b.parent_index = some p → p < 2 ^ 64
  | .adj v => ∀ e ∈ v.entries, e.mesh_object_index < 2 ^ 64
  | _ => True

theorem small_of {c : JCodec α} {d e : Nat} [h : JSmall c d] (v : α) (hd : d ≤ e) : (c.ser v).fits = true ∧ (c.ser v).depth ≤ e :=
  ⟨(h.ok v).1, Nat.le_trans (h.ok v).2 hd⟩

theorem small_le {j : J} {d e : Nat} (h : j.fits = true ∧ j.depth ≤ d) (he : d ≤ e) : j.fits = true ∧ j.depth ≤ e :=
  ⟨h.1, Nat.le_trans h.2 he⟩

theorem small_bone (b : SkelData.BoneData) (h : ∀ p, b.parent_index = some p → p < 2 ^ 64) :
    (SkelData.BoneData.json.ser b).fits = true ∧ (SkelData.BoneData.json.ser b).depth ≤ 3 := by
  have e : SkelData.BoneData.json.ser b = .obj [("name", JCodec.string.ser b.name), ("transform", matrixJson.ser b.transform),
    ("parent_index", (JCodec.option JCodec.usize).ser b.parent_index),
    ("billboard_type", Skel.BillboardType.json.ser b.billboard_type)] := rfl
  rw [e]
  refine small_obj fun x hx => ?_
  simp only [List.mem_cons, List.not_mem_nil, or_false] at hx
  rcases hx with rfl | rfl | rfl | rfl
  · exact small_of (c := JCodec.string) _ (by decide)
  · exact small_of (c := matrixJson) _ (by decide)
  · cases hp : b.parent_index with
    | none => exact ⟨rfl, Nat.zero_le _⟩
    | some p =>
      have := h p hp
      exact small_le (small_num (n := (p : Int)) (by omega) (by omega)) (by decide)
  · exact small_of (c := Skel.BillboardType.json) _ (by decide)

theorem small_adjEntry (a : AdjEntryData) (h : a.mesh_object_index < 2 ^ 64) :
    (AdjEntryData.json.ser a).fits = true ∧ (AdjEntryData.json.ser a).depth ≤ 2 := by
  have e : AdjEntryData.json.ser a = .obj [("mesh_object_index", .num a.mesh_object_index),
    ("vertex_adjacency", (JCodec.vec JCodec.i16).ser a.vertex_adjacency)] := rfl
  rw [e]
  refine small_obj fun x hx => ?_
  simp only [List.mem_cons, List.not_mem_nil, or_false] at hx
  rcases hx with rfl | rfl
  · exact small_le (small_num (n := (a.mesh_object_index : Int)) (by omega) (by omega)) (by decide)
  · exact small_of (c := JCodec.vec JCodec.i16) _ (by decide)

theorem data_small (f : DataFile) (hm : MachineSized f) : f.toJson.fits = true ∧ f.toJson.depth ≤ 127 := by
  cases f with
  | mesh v => exact small_of (c := MeshData.json) v (by decide)
  | anim v => exact small_of (c := AnimData.json) v (by decide)
  | modl v => exact small_of (c := ModlData.json) v (by decide)
  | matl v => exact small_of (c := MatlData.json) v (by decide)
  | hlpb v => exact small_of (c := HlpbData.json) v (by decide)
  | meshEx v => exact small_of (c := MeshExData.json) v (by decide)
  | skel v =>
    have e : DataFile.toJson (.skel v) = .obj [("major_version", JCodec.u16.ser v.major_version),
      ("minor_version", JCodec.u16.ser v.minor_version), ("bones", .arr (v.bones.map SkelData.BoneData.json.ser))] := rfl
    rw [e]
    refine small_le (small_obj (d := 4) fun x hx => ?_) (by decide)
    simp only [List.mem_cons, List.not_mem_nil, or_false] at hx
    rcases hx with rfl | rfl | rfl
    · exact small_of (c := JCodec.u16) _ (by decide)
    · exact small_of (c := JCodec.u16) _ (by decide)
    · refine small_arr fun j hj => ?_
      obtain ⟨b, hb, rfl⟩ := List.mem_map.mp hj
      exact small_bone b (hm b hb)
  | adj v =>
    have e : DataFile.toJson (.adj v) = .obj [("entries", .arr (v.entries.map AdjEntryData.json.ser))] := rfl
    rw [e]
    refine small_le (small_one (small_arr (d := 2) fun j hj => ?_) (e := 4) (by decide)) (by decide)
    obtain ⟨a, ha, rfl⟩ := List.mem_map.mp hj
    exact small_adjEntry a (hm a ha)

/-- C103: what ssbh_data_json prints for any data is read back as the same JSON value. -/
theorem C103_data (P : Nat → Nat × Int) (hP : Prints P) (f : DataFile) (hm : MachineSized f) :
    fromText (toText P f.toJson) = some f.toJson :=
  fromText_toText hP _ (data_small f hm).1 (data_small f hm).2

theorem readEntries_index {buf : List Int16} : ∀ {es : List Adj.AdjEntry} {l : List AdjEntryData}, AdjData.readEntries buf es = .ok l →
    ∀ a ∈ l, a.mesh_object_index < 2 ^ 64
  | [], l, h => by cases h; simp
  | [e], l, h => by
    rw [AdjData.readEntries] at h
    split at h
    · cases h
      intro a ha
      rw [List.mem_singleton.mp ha]
      have := e.mesh_object_index.toNat_lt
      show e.mesh_object_index.toNat < _
      omega
    · cases h
  | e :: e' :: es, l, h => by
    rw [AdjData.readEntries] at h
    split at h
    · cases h
    · split at h
      · cases h
      · rename_i h2
        cases h
        intro a ha
        rcases List.mem_cons.mp ha with rfl | ha
        · have := e.mesh_object_index.toNat_lt
          show e.mesh_object_index.toNat < _
          omega
        · exact readEntries_index h2 a ha

/-- C103: the indices of opened files are such numbers, and also those of data that can be restored from JSON. -/
theorem C103_sized (O : DataOps) (ext : String) (b : Bytes) (f : DataFile) (h : Opens O ext b f ∨ fileFinite f = true) : MachineSized f := by
  rcases h with h | h
  · cases f with
    | skel v =>
      obtain ⟨m, _, rfl⟩ := map_ok h.2
      cases m with
      | V10 m =>
        intro b hb p hp
        simp only [SkelData.ofSkel, List.mem_map] at hb
        obtain ⟨⟨e, t⟩, -, rfl⟩ := hb
        simp only [SkelData.createBoneData] at hp
        split at hp
        · cases hp
        · cases hp
          have h2 := e.parent_index.toInt_lt
          omega
    | adj v =>
      have h := h.2
      unfold AdjData.read at h
      split at h
      · cases h
      · split at h
        · cases h
        · rename_i h2
          cases h
          unfold AdjData.ofAdj at h2
          split at h2
          · cases h2
          · rename_i h3
            cases h2
            exact readEntries_index h3
    | mesh v => trivial
    | anim v => trivial
    | modl v => trivial
    | matl v => trivial
    | hlpb v => trivial
    | meshEx v => trivial
  · cases f with
    | skel v =>
      intro b hb p hp
      simp only [fileFinite, SkelData.finite, List.all_eq_true] at h
      have := h b hb
      simp only [SkelData.BoneData.finite, Bool.and_eq_true, hp, Option.all_some, isUsize, decide_eq_true_eq] at this
      exact this.2
    | adj v =>
      intro e he
      simp only [fileFinite, AdjData.finite, List.all_eq_true] at h
      have := h e he
      simpa only [AdjEntryData.finite, isUsize, decide_eq_true_eq] using this
    | mesh v => trivial
    | anim v => trivial
    | modl v => trivial
    | matl v => trivial
    | hlpb v => trivial
    | meshEx v => trivial

example : MachineSized modlData ∧ fileFinite modlData = true := ⟨trivial, rfl⟩

/-! ## The programs -/

/-- C103: a file, converted to JSON and back with ssbh_lib_json: C74 with the text of `serde_json`, of which nothing is assumed. -/
theorem C103_lib_program (P : Nat → Nat × Int) (hP : Prints P) (p : Path) (d : Disk) (ext : String) (f : JsonFile) (b : Bytes)
    (he : p.extension = some ext) (hj : ext ≠ "json") (hf : JsonFile.fromFile ext p d = some f)
    (hk : fileKept.fin f = true ∧ fileKept.norm f = f) (hw : f.write = some b) (hc : Counted f)
    (hm : d.mayCreate (jsonOf p) = true ∧ d.mayCreate (backOf p f.extension) = true) :
    ∃ d1 d2, libMain ⟨toText P, fromText⟩ p none d = (.done, d1) ∧ libMain ⟨toText P, fromText⟩ (jsonOf p) none d1 = (.done, d2) ∧
      d2.files (jsonOf p) = some (textBytes (toText P f.toJson)) ∧ d2.files (backOf p f.extension) = some b ∧
      (backOf p f.extension).extension = some f.extension ∧
      JsonFile.fromFile f.extension (backOf p f.extension) d2 = some f ∧ d2.files p = d.files p ∧
      ∀ q, q ≠ jsonOf p → q ≠ backOf p f.extension → d2.files q = d.files q :=
  C74_lib_round_trip ⟨toText P, fromText⟩ p d ext f b he hj hf hk hw hc hm (C103_lib P hP f)

/-- C103: a file, converted to JSON and back with ssbh_data_json. -/
theorem C103_data_program (P : Nat → Nat × Int) (hP : Prints P) (O : DataOps) (p : Path) (d : Disk) (ext : String) (f : DataFile)
    (b b' : Bytes) (he : p.extension = some ext) (hf : d.files p = some b) (ho : Opens O ext b f) (hk : fileFinite f = true)
    (hs : f.save O = .ok b') (hm : d.mayCreate (jsonOf p) = true ∧ d.mayCreate (backOf p ext) = true) :
    ∃ d1 d2, dataMain ⟨toText P, fromText⟩ O p none d = (.done, d1) ∧ dataMain ⟨toText P, fromText⟩ O (jsonOf p) none d1 = (.done, d2) ∧
      d2.files (jsonOf p) = some (textBytes (toText P f.toJson)) ∧ d2.files (backOf p ext) = some b' ∧
      (backOf p ext).extension = some ext ∧ (ext ≠ "numshb" ∧ ext ≠ "nuanmb" → Opens O ext b' f) ∧ d2.files p = d.files p ∧
      ∀ q, q ≠ jsonOf p → q ≠ backOf p ext → d2.files q = d.files q :=
  C74_data_round_trip ⟨toText P, fromText⟩ O p d ext f b b' he hf ho hk hs hm (C103_data P hP f (C103_sized O ext b f (.inl ho)))

example : ∃ b d1 d2, libMain ⟨toText shortest, fromText⟩ ⟨"a".toList, "model.numdlb".toList⟩ none (exFolder b) = (.done, d1) ∧
    libMain ⟨toText shortest, fromText⟩ ⟨"a".toList, "model.numdlb.json".toList⟩ none d1 = (.done, d2) ∧
    d2.files ⟨"a".toList, "model.numdlb".toList⟩ = some b ∧ d2.files ⟨"a".toList, "model.numdlb.numdlb".toList⟩ = some b ∧
    JsonFile.fromFile "numdlb" ⟨"a".toList, "model.numdlb.numdlb".toList⟩ d2 = some modlFile := by
  obtain ⟨b, hb⟩ : ∃ b, modlFile.write = some b := Option.isSome_iff_exists.mp (by decide +kernel)
  have hr : JsonFile.read "numdlb" b = .ok modlFile := read_written modlFile b trivial hb
  have hd : (exFolder b).files ⟨"a".toList, "model.numdlb".toList⟩ = some b := rfl
  obtain ⟨d1, d2, h1, h2, _, h4, _, h6, h7, _⟩ := C103_lib_program shortest shortest_prints ⟨"a".toList, "model.numdlb".toList⟩
    (exFolder b) "numdlb" modlFile b (by decide) (by decide) (by simp only [JsonFile.fromFile, hd, hr])
    ⟨by decide, by decide +kernel⟩ hb trivial ⟨rfl, rfl⟩
  exact ⟨b, d1, d2, h1, h2, by rw [h7, hd], h4, h6⟩

example (O : DataOps) : ∃ b d1 d2,
    dataMain ⟨toText shortest, fromText⟩ O ⟨"a".toList, "model.numdlb".toList⟩ none (exFolder b) = (.done, d1) ∧
    dataMain ⟨toText shortest, fromText⟩ O ⟨"a".toList, "model.numdlb.json".toList⟩ none d1 = (.done, d2) ∧
    d2.files ⟨"a".toList, "model.numdlb".toList⟩ = some b ∧ d2.files ⟨"a".toList, "model.numdlb.numdlb".toList⟩ = some b := by
  obtain ⟨b, hb⟩ : ∃ b, ModlData.write ⟨1, 7, "model", "model.nusktb", ["model.numatb"], none, "model.numshb", [⟨"head", 0, "mat"⟩]⟩ =
    .ok b := isOk_iff.mp (by decide +kernel)
  have ho : Opens O "numdlb" b modlData := by
    refine ⟨rfl, (C45_modl _ b hb).trans (congrArg Except.ok ?_)⟩
    decide
  have hd : (exFolder b).files ⟨"a".toList, "model.numdlb".toList⟩ = some b := rfl
  obtain ⟨d1, d2, h1, h2, _, h4, _, _, h7, _⟩ := C103_data_program shortest shortest_prints O
    ⟨"a".toList, "model.numdlb".toList⟩ (exFolder b) "numdlb" modlData b b (by decide) hd ho rfl hb ⟨rfl, rfl⟩
  exact ⟨b, d1, d2, h1, h2, by rw [h7, hd], h4⟩

end Verif.Props
