import Verif.Json.ShapesSame
import Verif.Json.DataShapesSame
import Verif.Json.ShapeStable
import Verif.Props.Json
import Verif.Props.JsonData
/-!
# C73: JSON documents

`Shape` is the specification of the documents of a type, see `Verif.Json.Shape`: which are accepted, and as which canonical
document the accepted ones are written.
-/

namespace Verif.Props
open Verif

/-! ## The types of the tools -/

/-- The first type which accepts the document, and its canonical document. -/
def firstAccepted (l : List (String × Shape)) (j : J) : Option (String × J) :=
  l.findSome? fun e => (e.2.canon j).map fun c => (e.1, c)

def libShapes : List (String × Shape) := [("Ssbh", Ssbh.shape), ("MeshEx", MeshEx.shape), ("Adj", Adj.shape)]

def libType : JsonFile → String
  | .ssbh _ => "Ssbh"
  | .meshEx _ => "MeshEx"
  | .adj _ => "Adj"

def dataShapes : List (String × Shape) :=
  [("MeshData", MeshData.shape), ("SkelData", SkelData.shape), ("AnimData", AnimData.shape), ("ModlData", ModlData.shape),
   ("MatlData", MatlData.shape), ("HlpbData", HlpbData.shape), ("MeshExData", MeshExData.shape), ("AdjData", AdjData.shape)]

def dataType : DataFile → String
  | .mesh _ => "MeshData"
  | .skel _ => "SkelData"
  | .anim _ => "AnimData"
  | .modl _ => "ModlData"
  | .matl _ => "MatlData"
  | .hlpb _ => "HlpbData"
  | .meshEx _ => "MeshExData"
  | .adj _ => "AdjData"

theorem shape_canon {c : JCodec α} {s : Shape} {p : Option J} [h : HasShape c s p] (j : J) : s.canon j = (c.de j).map c.ser :=
  (h.canon j).symm

/-- C73: ssbh_lib_json reads a document as the first of the three types that accepts it, with the value that is written as
the canonical document. -/
theorem C73_lib (j : J) : (JsonFile.fromJson j).map (fun f => (libType f, f.toJson)) = firstAccepted libShapes j := by
  simp only [firstAccepted, libShapes, List.findSome?_cons, List.findSome?_nil, shape_canon (c := Ssbh.json),
    shape_canon (c := MeshEx.json), shape_canon (c := Adj.json), JsonFile.fromJson]
  cases Ssbh.json.de j with
  | some v => rfl
  | none =>
    cases MeshEx.json.de j with
    | some v => rfl
    | none => cases Adj.json.de j <;> rfl

/-- C73: the same for ssbh_data_json and its eight types. -/
theorem C73_data (j : J) : (DataFile.fromJson j).map (fun f => (dataType f, f.toJson)) = firstAccepted dataShapes j := by
  simp only [firstAccepted, dataShapes, List.findSome?_cons, List.findSome?_nil, shape_canon (c := MeshData.json),
    shape_canon (c := SkelData.json), shape_canon (c := AnimData.json), shape_canon (c := ModlData.json),
    shape_canon (c := MatlData.json), shape_canon (c := HlpbData.json), shape_canon (c := MeshExData.json),
    shape_canon (c := AdjData.json), DataFile.fromJson]
  cases MeshData.json.de j with
  | some v => rfl
  | none =>
  cases SkelData.json.de j with
  | some v => rfl
  | none =>
  cases AnimData.json.de j with
  | some v => rfl
  | none =>
  cases ModlData.json.de j with
  | some v => rfl
  | none =>
  cases MatlData.json.de j with
  | some v => rfl
  | none =>
  cases HlpbData.json.de j with
  | some v => rfl
  | none =>
  cases MeshExData.json.de j with
  | some v => rfl
  | none => cases AdjData.json.de j <;> rfl

/-- C73: the documents of ShdrData, which no tool reads. -/
theorem C73_shdr (j : J) : (ShdrData.json.de j).map ShdrData.json.ser = ShdrData.shape.canon j :=
  HasShape.canon (c := ShdrData.json) j

/-- C73: the file which is written for a document is shown as the canonical document. -/
theorem C73_file (j : J) (f : JsonFile) (b : Bytes) (h : JsonFile.fromJson j = some f) (hc : Counted f) (hb : f.write = some b) :
    ∃ g, JsonFile.read f.extension b = .ok g ∧ firstAccepted libShapes j = some (libType g, g.toJson) := by
  refine ⟨f, read_written f b hc hb, ?_⟩
  rw [← C73_lib, h]
  rfl

/-! ## Canonical documents -/

theorem libShapes_good : Ssbh.shape.good = true ∧ MeshEx.shape.good = true ∧ Adj.shape.good = true := by decide +kernel

theorem de_canonical {α : Type} {c : JCodec α} {s : Shape} {p : Option J} [HasShape c s p] (hg : s.good = true) {j : J} (hr : j.inRange = true)
    {v : α} (hv : c.de j = some v) : ∃ w, c.de (c.ser v) = some w ∧ c.ser w = c.ser v := by
  have h1 : s.canon j = some (c.ser v) := by rw [shape_canon (c := c), hv]; rfl
  have h2 := Shape.stable s hg j _ hr h1
  rw [shape_canon (c := c)] at h2
  cases hw : c.de (c.ser v) with
  | none => rw [hw] at h2; cases h2
  | some w =>
    rw [hw] at h2
    exact ⟨w, rfl, Option.some.inj h2⟩

theorem fromJson_cases {j : J} {f : JsonFile} (h : JsonFile.fromJson j = some f) :
    (∃ v, f = .ssbh v ∧ Ssbh.json.de j = some v) ∨ (∃ v, f = .meshEx v ∧ MeshEx.json.de j = some v) ∨
    ∃ v, f = .adj v ∧ Adj.json.de j = some v := by
  simp only [JsonFile.fromJson] at h
  split at h
  · rename_i v hv; cases h; exact .inl ⟨v, rfl, hv⟩
  · split at h
    · rename_i v hv; cases h; exact .inr (.inl ⟨v, rfl, hv⟩)
    · split at h
      · rename_i v hv; cases h; exact .inr (.inr ⟨v, rfl, hv⟩)
      · cases h

/-- C73: a canonical document is its own canonical document, of the same type, if the document had no number that is too large
for a float. -/
theorem C73_lib_stable (j c : J) (k : String) (hr : j.inRange = true) (h : firstAccepted libShapes j = some (k, c)) :
    firstAccepted libShapes c = some (k, c) := by
  rw [← C73_lib] at h
  cases hf : JsonFile.fromJson j with
  | none => rw [hf] at h; cases h
  | some f =>
    rw [hf] at h
    cases h
    rw [← C73_lib]
    rcases fromJson_cases hf with ⟨v, rfl, hv⟩ | ⟨v, rfl, hv⟩ | ⟨v, rfl, hv⟩
    · obtain ⟨w, h1, h2⟩ := de_canonical libShapes_good.1 hr hv
      have e := fromJson_ssbh v
      rw [← Ssbh.json_law.back v, h1] at e
      show (JsonFile.fromJson (Ssbh.json.ser v)).map _ = _
      rw [e]
      exact congrArg (fun c => some ("Ssbh", c)) h2
    · obtain ⟨w, h1, h2⟩ := de_canonical libShapes_good.2.1 hr hv
      have e := fromJson_meshEx v
      rw [← MeshEx.json_law.back v, h1] at e
      show (JsonFile.fromJson (MeshEx.json.ser v)).map _ = _
      rw [e]
      exact congrArg (fun c => some ("MeshEx", c)) h2
    · obtain ⟨w, h1, h2⟩ := de_canonical libShapes_good.2.2 hr hv
      have e := fromJson_adj v
      rw [← Adj.json_law.back v, h1] at e
      show (JsonFile.fromJson (Adj.json.ser v)).map _ = _
      rw [e]
      exact congrArg (fun c => some ("Adj", c)) h2

theorem dataShapes_good : MeshData.shape.good = true ∧ SkelData.shape.good = true ∧ AnimData.shape.good = true ∧
    ModlData.shape.good = true ∧ MatlData.shape.good = true ∧ HlpbData.shape.good = true ∧ MeshExData.shape.good = true ∧
    AdjData.shape.good = true := by decide +kernel

theorem data_cases {j : J} {f : DataFile} (h : DataFile.fromJson j = some f) :
    (∃ v, f = .mesh v ∧ MeshData.json.de j = some v) ∨ (∃ v, f = .skel v ∧ SkelData.json.de j = some v) ∨
    (∃ v, f = .anim v ∧ AnimData.json.de j = some v) ∨ (∃ v, f = .modl v ∧ ModlData.json.de j = some v) ∨
    (∃ v, f = .matl v ∧ MatlData.json.de j = some v) ∨ (∃ v, f = .hlpb v ∧ HlpbData.json.de j = some v) ∨
    (∃ v, f = .meshEx v ∧ MeshExData.json.de j = some v) ∨ ∃ v, f = .adj v ∧ AdjData.json.de j = some v := by
  simp only [DataFile.fromJson] at h
  cases h1 : MeshData.json.de j with
  | some v => rw [h1] at h; cases h; exact .inl ⟨v, rfl, rfl⟩
  | none =>
  cases h2 : SkelData.json.de j with
  | some v => rw [h1, h2] at h; cases h; exact .inr (.inl ⟨v, rfl, rfl⟩)
  | none =>
  cases h3 : AnimData.json.de j with
  | some v => rw [h1, h2, h3] at h; cases h; exact .inr (.inr (.inl ⟨v, rfl, rfl⟩))
  | none =>
  cases h4 : ModlData.json.de j with
  | some v => rw [h1, h2, h3, h4] at h; cases h; exact .inr (.inr (.inr (.inl ⟨v, rfl, rfl⟩)))
  | none =>
  cases h5 : MatlData.json.de j with
  | some v => rw [h1, h2, h3, h4, h5] at h; cases h; exact .inr (.inr (.inr (.inr (.inl ⟨v, rfl, rfl⟩))))
  | none =>
  cases h6 : HlpbData.json.de j with
  | some v => rw [h1, h2, h3, h4, h5, h6] at h; cases h; exact .inr (.inr (.inr (.inr (.inr (.inl ⟨v, rfl, rfl⟩)))))
  | none =>
  cases h7 : MeshExData.json.de j with
  | some v => rw [h1, h2, h3, h4, h5, h6, h7] at h; cases h; exact .inr (.inr (.inr (.inr (.inr (.inr (.inl ⟨v, rfl, rfl⟩))))))
  | none =>
  cases h8 : AdjData.json.de j with
  | some v =>
    rw [h1, h2, h3, h4, h5, h6, h7, h8] at h; cases h; exact .inr (.inr (.inr (.inr (.inr (.inr (.inr ⟨v, rfl, rfl⟩))))))
  | none => rw [h1, h2, h3, h4, h5, h6, h7, h8] at h; cases h

/-- The data of a document whose canonical document is accepted is finite. -/
theorem finite_of_back {α : Type} {c : JCodec α} {fin : α → Bool} (hl : JLaw c (.exact fin)) {v w : α}
    (h : c.de (c.ser v) = some w) : fin v = true := by
  have := hl.back v
  rw [h] at this
  cases hf : fin v with
  | true => rfl
  | false => rw [exact_back, hf] at this; cases this

/-- C73: the same for the data types. -/
theorem C73_data_stable (j c : J) (k : String) (hr : j.inRange = true) (h : firstAccepted dataShapes j = some (k, c)) :
    firstAccepted dataShapes c = some (k, c) := by
  rw [← C73_data] at h
  cases hf : DataFile.fromJson j with
  | none => rw [hf] at h; cases h
  | some f =>
    rw [hf] at h
    cases h
    rw [← C73_data]
    have key : fileFinite f = true := by
      obtain ⟨g1, g2, g3, g4, g5, g6, g7, g8⟩ := dataShapes_good
      rcases data_cases hf with ⟨v, rfl, hv⟩ | ⟨v, rfl, hv⟩ | ⟨v, rfl, hv⟩ | ⟨v, rfl, hv⟩ | ⟨v, rfl, hv⟩ | ⟨v, rfl, hv⟩ |
        ⟨v, rfl, hv⟩ | ⟨v, rfl, hv⟩
      · obtain ⟨w, h1, -⟩ := de_canonical g1 hr hv; exact finite_of_back MeshData.json_law h1
      · obtain ⟨w, h1, -⟩ := de_canonical g2 hr hv; exact finite_of_back SkelData.json_law h1
      · obtain ⟨w, h1, -⟩ := de_canonical g3 hr hv; exact finite_of_back AnimData.json_law h1
      · rfl
      · obtain ⟨w, h1, -⟩ := de_canonical g5 hr hv; exact finite_of_back MatlData.json_law h1
      · obtain ⟨w, h1, -⟩ := de_canonical g6 hr hv; exact finite_of_back HlpbData.json_law h1
      · obtain ⟨w, h1, -⟩ := de_canonical g7 hr hv; exact finite_of_back MeshExData.json_law h1
      · obtain ⟨w, h1, -⟩ := de_canonical g8 hr hv; exact finite_of_back AdjData.json_law h1
    rw [(C64_round_trip f).1 key]
    rfl

/-! ## Numbers of variants -/

/-- C73: the variant of an enum with a number (which the files have) is written as its name, for all enums that are stored
as numbers. -/
theorem C73_numbers :
    (∀ v s, Shdr.ShaderStage.json.ser v = .str s ↔ (s, v.tag) ∈ Shdr.ShaderStage.numbers) ∧
    (∀ v s, Skel.BillboardType.json.ser v = .str s ↔ (s, v.tag) ∈ Skel.BillboardType.numbers) ∧
    (∀ v s, Hlpb.ConstraintType.json.ser v = .str s ↔ (s, v.tag) ∈ Hlpb.ConstraintType.numbers) ∧
    (∀ v s, Anim.TrackTypeV1.json.ser v = .str s ↔ (s, v.tag) ∈ Anim.TrackTypeV1.numbers) ∧
    (∀ v s, Anim.GroupType.json.ser v = .str s ↔ (s, v.tag) ∈ Anim.GroupType.numbers) ∧
    (∀ v s, Anim.TrackTypeV2.json.ser v = .str s ↔ (s, v.tag) ∈ Anim.TrackTypeV2.numbers) ∧
    (∀ v s, Anim.CompressionType.json.ser v = .str s ↔ (s, v.tag) ∈ Anim.CompressionType.numbers) ∧
    (∀ v s, Mesh.DrawElementType.json.ser v = .str s ↔ (s, v.tag) ∈ Mesh.DrawElementType.numbers) ∧
    (∀ v s, Mesh.AttributeUsageV8.json.ser v = .str s ↔ (s, v.tag) ∈ Mesh.AttributeUsageV8.numbers) ∧
    (∀ v s, Mesh.AttributeDataTypeV8.json.ser v = .str s ↔ (s, v.tag) ∈ Mesh.AttributeDataTypeV8.numbers) ∧
    (∀ v s, Mesh.AttributeUsageV9.json.ser v = .str s ↔ (s, v.tag) ∈ Mesh.AttributeUsageV9.numbers) ∧
    (∀ v s, Mesh.AttributeDataTypeV10.json.ser v = .str s ↔ (s, v.tag) ∈ Mesh.AttributeDataTypeV10.numbers) ∧
    (∀ v s, Matl.ParamId.json.ser v = .str s ↔ (s, v.tag) ∈ Matl.ParamId.numbers) ∧
    (∀ v s, Matl.WrapMode.json.ser v = .str s ↔ (s, v.tag) ∈ Matl.WrapMode.numbers) ∧
    (∀ v s, Matl.MinFilter.json.ser v = .str s ↔ (s, v.tag) ∈ Matl.MinFilter.numbers) ∧
    (∀ v s, Matl.MagFilter.json.ser v = .str s ↔ (s, v.tag) ∈ Matl.MagFilter.numbers) ∧
    (∀ v s, Matl.FilteringType.json.ser v = .str s ↔ (s, v.tag) ∈ Matl.FilteringType.numbers) ∧
    (∀ v s, Matl.MaxAnisotropy.json.ser v = .str s ↔ (s, v.tag) ∈ Matl.MaxAnisotropy.numbers) ∧
    (∀ v s, Matl.BlendFactor.json.ser v = .str s ↔ (s, v.tag) ∈ Matl.BlendFactor.numbers) ∧
    (∀ v s, Matl.BlendOperation.json.ser v = .str s ↔ (s, v.tag) ∈ Matl.BlendOperation.numbers) ∧
    (∀ v s, Matl.CullMode.json.ser v = .str s ↔ (s, v.tag) ∈ Matl.CullMode.numbers) ∧
    (∀ v s, Matl.FillMode.json.ser v = .str s ↔ (s, v.tag) ∈ Matl.FillMode.numbers) ∧
    (∀ v s, Nrpd.UnkFormat.json.ser v = .str s ↔ (s, v.tag) ∈ Nrpd.UnkFormat.numbers) :=
  ⟨Shdr.ShaderStage.json_numbers, Skel.BillboardType.json_numbers, Hlpb.ConstraintType.json_numbers, Anim.TrackTypeV1.json_numbers, Anim.GroupType.json_numbers, Anim.TrackTypeV2.json_numbers, Anim.CompressionType.json_numbers, Mesh.DrawElementType.json_numbers, Mesh.AttributeUsageV8.json_numbers, Mesh.AttributeDataTypeV8.json_numbers, Mesh.AttributeUsageV9.json_numbers, Mesh.AttributeDataTypeV10.json_numbers, Matl.ParamId.json_numbers, Matl.WrapMode.json_numbers, Matl.MinFilter.json_numbers, Matl.MagFilter.json_numbers, Matl.FilteringType.json_numbers, Matl.MaxAnisotropy.json_numbers, Matl.BlendFactor.json_numbers, Matl.BlendOperation.json_numbers, Matl.CullMode.json_numbers, Matl.FillMode.json_numbers, Nrpd.UnkFormat.json_numbers⟩

/-! ## Examples and findings -/

/-- A document with a number which is too large for a float. -/
def largeDocument : J :=
  .obj [("unk1", .num 0), ("all_data", .obj [("bounding_sphere", .obj [("center", .obj [("x", .num (10 ^ 39)), ("y", .num 0),
    ("z", .num 0)]), ("radius", .num 1)]), ("name", .null)])]

/-- What is written for it, with `null` for infinity. -/
def largeCanonical : J :=
  .obj [("all_data", .obj [("bounding_sphere", .obj [("center", .obj [("x", .null), ("y", .flt 0), ("z", .flt 0)]),
    ("radius", .flt 0x3f800000)]), ("name", .null)]), ("mesh_object_groups", .null), ("entries", .null),
    ("entry_flags", .null), ("unk1", .num 0)]

/-- C73: a number which is too large is accepted as infinity, and what is written for it is not accepted. -/
theorem C73_too_large : firstAccepted libShapes largeDocument = some ("MeshEx", largeCanonical) ∧
    firstAccepted libShapes largeCanonical = none := by
  constructor <;> rfl

example : largeDocument.inRange = false := by decide +kernel

theorem filter_of_lookup : ∀ {l : List (String × J)} {m : String}, l.lookup m = none → l.filter (fun e => e.1 == m) = []
  | [], _, _ => rfl
  | (k, x) :: l, m, h => by
    rw [List.lookup_cons] at h
    by_cases hk : m = k
    · subst hk; simp at h
    · rw [show (m == k) = false by simpa using hk] at h
      rw [List.filter_cons, if_neg (by simpa using Ne.symm hk)]
      exact filter_of_lookup h

/-- C73: every object with a number `unk1` and none of the other names of MeshEx is accepted as a MeshEx without content, so
that a document with misspelled names loses its content. -/
theorem C73_misspelled (l : List (String × J)) (n : UInt32) (h : ∀ m ∈ ["all_data", "mesh_object_groups", "entries",
    "entry_flags", "unk1"], l.lookup m = none) :
    JsonFile.fromJson (.obj (("unk1", .num n.toNat) :: l)) = some (.meshEx ⟨none, none, none, none, n⟩) := by
  have h1 : Ssbh.json.de (.obj (("unk1", .num n.toNat) :: l)) = none := by
    cases l <;> rfl
  have h2 : JCodec.duplicate ["all_data", "mesh_object_groups", "entries", "entry_flags", "unk1"]
      (("unk1", .num n.toNat) :: l) = false := by
    simp only [JCodec.duplicate, List.any_eq_false, decide_eq_true_eq]
    intro m hm
    have e : l.filter (fun e => e.1 == m) = [] := filter_of_lookup (h m hm)
    rw [List.filter_cons, e]
    split <;> simp
  have h3 : MeshEx.json.de (.obj (("unk1", .num n.toNat) :: l)) = some ⟨none, none, none, none, n⟩ := by
    have e5 : JCodec.u32.de (.num n.toNat) = some n := JLaw.u32.back n
    simp only [MeshEx.json, JCodec.struct]
    split
    · rename_i hd; exact absurd (h2.symm.trans hd) (by decide)
    · have k : ∀ m ∈ ["all_data", "mesh_object_groups", "entries", "entry_flags"], (("unk1", J.num n.toNat) :: l).lookup m = none := by
        intro m hm
        rw [List.lookup_cons]
        rw [show (m == "unk1") = false by fin_cases hm <;> rfl]
        exact h m (by fin_cases hm <;> simp)
      have k5 : (("unk1", J.num n.toNat) :: l).lookup "unk1" = some (.num n.toNat) := rfl
      simp only [JRec.and, JRec.field, k "all_data" (by simp), k "mesh_object_groups" (by simp), k "entries" (by simp),
        k "entry_flags" (by simp), k5, e5]
      rfl
  rw [JsonFile.fromJson, h1, h3]

/-- Two misspelled names. -/
example : JsonFile.fromJson (.obj [("unk1", .num 3), ("entrys", .arr [.num 1]), ("allData", .null)]) =
    some (.meshEx ⟨none, none, none, none, 3⟩) := C73_misspelled _ 3 (by decide +kernel)

/-- A document with entries in another order, an unknown entry, an integer as float, an array for a struct and upper case digits. -/
example : firstAccepted libShapes (.obj [("Shdr", .obj [("V12", .obj [("extra", .bool true), ("shaders", .arr [
      .arr [.str "a", .obj [("Vertex", .null)], .num 7, .str "0aFF", .num 2]])])])]) =
    some ("Ssbh", .obj [("Shdr", .obj [("V12", .obj [("shaders", .arr [.obj [("name", .str "a"), ("shader_stage", .str "Vertex"),
      ("unk3", .num 7), ("shader_binary", .str "0aff"), ("binary_size", .num 2)]])])])]) := by rfl

/-- Numbers outside the range, missing entries, two entries with the same name and wrong names are not accepted. -/
example : firstAccepted libShapes (.obj [("entries", .arr []), ("index_buffer", .arr [.num 32768])]) = none ∧
    firstAccepted libShapes (.obj [("entries", .arr [])]) = none ∧
    firstAccepted libShapes (.obj [("entries", .arr []), ("index_buffer", .arr []), ("entries", .arr [])]) = none ∧
    firstAccepted libShapes (.obj [("Shdr", .obj [("V13", .obj [("shaders", .arr [])])])]) = none ∧
    firstAccepted libShapes (.obj [("entries", .arr []), ("index_buffer", .arr [.num 32767])]) =
      some ("Adj", .obj [("entries", .arr []), ("index_buffer", .arr [.num 32767])]) :=
  ⟨rfl, rfl, rfl, rfl, rfl⟩

/-- Material data with a sampler which has one entry. -/
example : firstAccepted dataShapes (.obj [("major_version", .num 1), ("minor_version", .num 6), ("entries", .arr [])]) =
    some ("MatlData", .obj [("major_version", .num 1), ("minor_version", .num 6), ("entries", .arr [])]) ∧
    MatlData.SamplerData.shape.canon (.obj [("lod_bias", .num (-1)), ("max_anisotropy", .null)]) =
      some (.obj [("wraps", .str "ClampToEdge"), ("wrapt", .str "ClampToEdge"), ("wrapr", .str "ClampToEdge"),
        ("min_filter", .str "LinearMipmapLinear"), ("mag_filter", .str "Linear"),
        ("border_color", .obj [("r", .flt 0), ("g", .flt 0), ("b", .flt 0), ("a", .flt 0)]), ("lod_bias", .flt 0xbf800000),
        ("max_anisotropy", .str "One")]) := ⟨rfl, rfl⟩

example : JsonFile.fromJson (.obj [("entries", .arr []), ("index_buffer", .arr [.num (-1)])]) = some (.adj ⟨[], [-1]⟩) := rfl

end Verif.Props
