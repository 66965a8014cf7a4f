import Verif.Json.ShapeEdit
import Verif.Props.JsonEdit
import Verif.Props.Documents
/-!
# C109: which edits of JSON are accepted

`Shape.part` in `Json/ShapeEdit.lean` and `Shape.canon` in `Json/Shape.lean` are the specification: the shape of a part of a document, and
what it accepts.
-/

namespace Verif.Props
open Verif Verif.Json

/-- The types in the list do not accept the objects of each other that come later. -/
def ahead (S : List (String × Shape)) : Prop := S.Pairwise fun a b => (b.2.heads.all a.2.refuses) = true

instance (S : List (String × Shape)) : Decidable (ahead S) := by unfold ahead; infer_instance

theorem first_edit {S : List (String × Shape)} (hg : ∀ e ∈ S, e.2.good = true ∧ e.2.heads ≠ []) (ha : ahead S) {c x : J} {k : String}
    (h : firstAccepted S c = some (k, c)) {p : List Nat} (hp : p ≠ []) (hx : c.get p = some x) :
    ∃ s0 s, (k, s0) ∈ S ∧ s0.part c p = some s ∧ s.canon x = some x ∧
      (∀ v w, s.canon v = some w → firstAccepted S (J.put v p c) = some (k, J.put w p c)) ∧
      ((∀ e ∈ S, e.1 ≠ k → s0.heads.all e.2.refuses = true) → (S.map (·.1)).Nodup →
        ∀ v, firstAccepted S (J.put v p c) = (s.canon v).map fun w => (k, J.put w p c)) := by
  obtain ⟨S1, ⟨k', s0⟩, S2, rfl, hf, -⟩ := List.findSome?_eq_some_iff.mp h
  cases hc : s0.canon c with
  | none => rw [hc] at hf; cases hf
  | some c' =>
  rw [hc] at hf
  obtain ⟨rfl, rfl⟩ : k' = k ∧ c' = c := by simpa using hf
  have hm : (k', s0) ∈ S1 ++ (k', s0) :: S2 := by simp
  obtain ⟨g1, g2⟩ := hg _ hm
  obtain ⟨s, e1, -, e3, e4⟩ := Shape.part_canon p s0 g1 c' x hc hx
  obtain ⟨l, rfl, hl⟩ := Shape.heads_canon g2 hc
  have no : ∀ (t : Shape), s0.heads.all t.refuses = true → ∀ v, t.canon (J.put v p (.obj l)) = none := fun t ht v => by
    obtain ⟨m, e, hk⟩ := Shape.put_keys (l := l) v hp
    rw [e]
    exact Shape.refuses_canon (by rw [hk]; exact List.all_eq_true.mp ht _ hl)
  have h1 : ∀ v, S1.findSome? (fun e => (e.2.canon (J.put v p (.obj l))).map fun c => (e.1, c)) = none := fun v => by
    rw [List.findSome?_eq_none_iff]
    intro e he
    have := (List.pairwise_append.mp ha).2.2 e he (k', s0) (by simp)
    rw [no e.2 this v]
    rfl
  refine ⟨s0, s, hm, e1, e3, fun v w hw => ?_, fun hr hn v => ?_⟩
  · rw [firstAccepted, List.findSome?_append, h1, Option.none_or, List.findSome?_cons, e4, hw]
    rfl
  · rw [firstAccepted, List.findSome?_append, h1, Option.none_or, List.findSome?_cons, e4]
    cases hw : s.canon v with
    | some w => rfl
    | none =>
      simp only [Option.map_none]
      rw [List.findSome?_eq_none_iff]
      intro e he
      have hne : e.1 ≠ k' := by
        rintro rfl
        rw [List.map_append, List.map_cons, List.nodup_append, List.nodup_cons] at hn
        exact hn.2.1.1 (List.mem_map.mpr ⟨e, he, rfl⟩)
      rw [no e.2 (hr e (by simp [he]) hne) v]
      rfl

/-! ## Documents -/

/-- C109: in a document that ssbh_lib_json writes, a part below the top can be replaced by exactly the documents that its shape accepts.
The type remains, and only this part of the canonical document changes. -/
theorem C109_lib (c x : J) (k : String) (p : List Nat) (h : firstAccepted libShapes c = some (k, c)) (hp : p ≠ []) (hx : c.get p = some x) :
    ∃ s0 s, (k, s0) ∈ libShapes ∧ s0.part c p = some s ∧ s.canon x = some x ∧
      ∀ v, firstAccepted libShapes (J.put v p c) = (s.canon v).map fun w => (k, J.put w p c) := by
  have hg : ∀ e ∈ libShapes, e.2.good = true ∧ e.2.heads ≠ [] := by decide +kernel
  have ha : ahead libShapes := by decide +kernel
  have hr : ∀ a ∈ libShapes, ∀ e ∈ libShapes, e.1 ≠ a.1 → a.2.heads.all e.2.refuses = true := by decide +kernel
  obtain ⟨s0, s, h1, h2, h3, -, h4⟩ := first_edit hg ha h hp hx
  exact ⟨s0, s, h1, h2, h3, h4 (fun e he => hr _ h1 e he) (by decide +kernel)⟩

/-- C109: the same for ssbh_data_json. In models and materials what the shape does not accept can make the whole another type. -/
theorem C109_data (c x : J) (k : String) (p : List Nat) (h : firstAccepted dataShapes c = some (k, c)) (hp : p ≠ [])
    (hx : c.get p = some x) :
    ∃ s0 s, (k, s0) ∈ dataShapes ∧ s0.part c p = some s ∧ s.canon x = some x ∧
      (∀ v w, s.canon v = some w → firstAccepted dataShapes (J.put v p c) = some (k, J.put w p c)) ∧
      (k ≠ "ModlData" → k ≠ "MatlData" → ∀ v, s.canon v = none → firstAccepted dataShapes (J.put v p c) = none) := by
  have hg : ∀ e ∈ dataShapes, e.2.good = true ∧ e.2.heads ≠ [] := by decide +kernel
  have ha : ahead dataShapes := by decide +kernel
  have hr : ∀ a ∈ dataShapes, a.1 ≠ "ModlData" → a.1 ≠ "MatlData" → ∀ e ∈ dataShapes, e.1 ≠ a.1 → a.2.heads.all e.2.refuses = true := by
    decide +kernel
  obtain ⟨s0, s, h1, h2, h3, h5, h4⟩ := first_edit hg ha h hp hx
  refine ⟨s0, s, h1, h2, h3, h5, fun k1 k2 v hv => ?_⟩
  rw [h4 (fun e he => hr _ h1 k1 k2 e he) (by decide +kernel), hv]
  rfl

/-! ## Files -/

theorem lib_canonical (f : JsonFile) (hf : fileKept.fin f = true) : firstAccepted libShapes f.toJson = some (libType f, f.toJson) := by
  rw [← C73_lib, (C63_round_trip f).1 hf]
  cases f with
  | ssbh v => exact congrArg (fun j => some ("Ssbh", j)) (Ssbh.json_law.same v hf)
  | meshEx v => exact congrArg (fun j => some ("MeshEx", j)) (MeshEx.json_law.same v hf)
  | adj v => exact congrArg (fun j => some ("Adj", j)) (Adj.json_law.same v hf)

theorem data_canonical (f : DataFile) (hf : fileFinite f = true) : firstAccepted dataShapes f.toJson = some (dataType f, f.toJson) := by
  rw [← C73_data, (C64_round_trip f).1 hf]
  rfl

/-- C109: an edit of the JSON of a file is accepted exactly if the shape of the part accepts it. The new file is of the same type, its JSON
has the canonical document of what the user wrote, and all other parts are the same. -/
theorem C109_lib_file (f : JsonFile) (x : J) (p : List Nat) (hf : fileKept.fin f = true) (hp : p ≠ []) (hx : f.toJson.get p = some x) :
    ∃ s0 s, (libType f, s0) ∈ libShapes ∧ s0.part f.toJson p = some s ∧ s.canon x = some x ∧
      (∀ v w, s.canon v = some w → ∃ g, JsonFile.fromJson (J.put v p f.toJson) = some g ∧ libType g = libType f ∧
        g.toJson = J.put w p f.toJson ∧ g.toJson.get p = some w ∧
        ∀ q, ¬ p <+: q → ¬ q <+: p → g.toJson.get q = f.toJson.get q) ∧
      ∀ v, s.canon v = none → JsonFile.fromJson (J.put v p f.toJson) = none := by
  obtain ⟨s0, s, h1, h2, h3, h4⟩ := C109_lib _ _ _ p (lib_canonical f hf) hp hx
  refine ⟨s0, s, h1, h2, h3, fun v w hw => ?_, fun v hv => ?_⟩
  · have := h4 v
    rw [← C73_lib, hw] at this
    cases hg : JsonFile.fromJson (J.put v p f.toJson) with
    | none => rw [hg] at this; cases this
    | some g =>
      rw [hg] at this
      obtain ⟨e1, e2⟩ : libType g = libType f ∧ g.toJson = J.put w p f.toJson := by simpa using this
      exact ⟨g, rfl, e1, e2, by rw [e2]; exact get_put p hx, fun q a b => by rw [e2]; exact get_put_other p q _ _ a b⟩
  · have := h4 v
    rw [← C73_lib, hv] at this
    exact Option.map_eq_none_iff.mp this

/-- C109: the same for the data types. -/
theorem C109_data_file (f : DataFile) (x : J) (p : List Nat) (hf : fileFinite f = true) (hp : p ≠ []) (hx : f.toJson.get p = some x) :
    ∃ s0 s, (dataType f, s0) ∈ dataShapes ∧ s0.part f.toJson p = some s ∧ s.canon x = some x ∧
      (∀ v w, s.canon v = some w → ∃ g, DataFile.fromJson (J.put v p f.toJson) = some g ∧ dataType g = dataType f ∧
        g.toJson = J.put w p f.toJson ∧ g.toJson.get p = some w ∧
        ∀ q, ¬ p <+: q → ¬ q <+: p → g.toJson.get q = f.toJson.get q) ∧
      (dataType f ≠ "ModlData" → dataType f ≠ "MatlData" → ∀ v, s.canon v = none → DataFile.fromJson (J.put v p f.toJson) = none) := by
  obtain ⟨s0, s, h1, h2, h3, h4, h5⟩ := C109_data _ _ _ p (data_canonical f hf) hp hx
  refine ⟨s0, s, h1, h2, h3, fun v w hw => ?_, fun k1 k2 v hv => ?_⟩
  · have := h4 v w hw
    rw [← C73_data] at this
    cases hg : DataFile.fromJson (J.put v p f.toJson) with
    | none => rw [hg] at this; cases this
    | some g =>
      rw [hg] at this
      obtain ⟨e1, e2⟩ : dataType g = dataType f ∧ g.toJson = J.put w p f.toJson := by simpa using this
      exact ⟨g, rfl, e1, e2, by rw [e2]; exact get_put p hx, fun q a b => by rw [e2]; exact get_put_other p q _ _ a b⟩
  · have := h5 k1 k2 v hv
    rw [← C73_data] at this
    exact Option.map_eq_none_iff.mp this

/-! ## Text -/

/-- C109: so in the text of the JSON of a file the piece of a part can be replaced by the texts of exactly the values that the shape of the
part accepts, as long as the result is not nested too deep. -/
theorem C109_lib_text (f : JsonFile) (t : String) (x : J) (p : List Nat) (hf : fileKept.fin f = true) (ht : fromText t = some f.toJson)
    (hp : p ≠ []) (hx : f.toJson.get p = some x) :
    ∃ s0 s, (libType f, s0) ∈ libShapes ∧ s0.part f.toJson p = some s ∧
      ∃ pre y post : List Char, t.toList = pre ++ (y ++ post) ∧ fromText (String.ofList y) = some x ∧
        ∀ (y' : List Char) (v : J), fromText (String.ofList y') = some v → p.length + v.depth ≤ 127 →
          ((fromText (String.ofList (pre ++ (y' ++ post)))).bind JsonFile.fromJson).map (fun g => (libType g, g.toJson)) =
            (s.canon v).map fun w => (libType f, J.put w p f.toJson) := by
  obtain ⟨s0, s, h1, h2, -, h4⟩ := C109_lib _ _ _ p (lib_canonical f hf) hp hx
  obtain ⟨pre, y, post, e1, e2, e3⟩ := C107_edit t _ x p ht hx
  refine ⟨s0, s, h1, h2, pre, y, post, e1, e2, fun y' v hy hd => ?_⟩
  have hd0 := ((C105_grammar _ _).mp ht).1
  rw [e3 y' v hy ((depth_put p f.toJson).trans (by omega)), Option.bind_some, C73_lib, h4]

/-- C109: the same for the data types. -/
theorem C109_data_text (f : DataFile) (t : String) (x : J) (p : List Nat) (hf : fileFinite f = true) (ht : fromText t = some f.toJson)
    (hp : p ≠ []) (hx : f.toJson.get p = some x) :
    ∃ s0 s, (dataType f, s0) ∈ dataShapes ∧ s0.part f.toJson p = some s ∧
      ∃ pre y post : List Char, t.toList = pre ++ (y ++ post) ∧ fromText (String.ofList y) = some x ∧
        ∀ (y' : List Char) (v : J), fromText (String.ofList y') = some v → p.length + v.depth ≤ 127 →
          (∀ w, s.canon v = some w →
            ((fromText (String.ofList (pre ++ (y' ++ post)))).bind DataFile.fromJson).map (fun g => (dataType g, g.toJson)) =
              some (dataType f, J.put w p f.toJson)) ∧
          (s.canon v = none → dataType f ≠ "ModlData" → dataType f ≠ "MatlData" →
            (fromText (String.ofList (pre ++ (y' ++ post)))).bind DataFile.fromJson = none) := by
  obtain ⟨s0, s, h1, h2, -, h4, h5⟩ := C109_data _ _ _ p (data_canonical f hf) hp hx
  obtain ⟨pre, y, post, e1, e2, e3⟩ := C107_edit t _ x p ht hx
  refine ⟨s0, s, h1, h2, pre, y, post, e1, e2, fun y' v hy hd => ?_⟩
  have hd0 := ((C105_grammar _ _).mp ht).1
  rw [e3 y' v hy ((depth_put p f.toJson).trans (by omega)), Option.bind_some, C73_data]
  refine ⟨fun w hw => h4 v w hw, fun hv k1 k2 => ?_⟩
  have := h5 k1 k2 v hv
  rw [← C73_data] at this
  exact Option.map_eq_none_iff.mp this

/-! ## Models and materials without entries -/

/-- What the shape of the part does not accept is not accepted for the type. -/
theorem not_de {α : Type} {c : JCodec α} {s s' : Shape} {o : Option J} [HasShape c s o] (hg : s.good = true) {j x v : J} {p : List Nat}
    (hj : s.canon j = some j) (hx : j.get p = some x) (hs : s.part j p = some s') (hv : s'.canon v = none) :
    c.de (J.put v p j) = none := by
  obtain ⟨t, e1, -, -, e4⟩ := Shape.part_canon p s hg j x hj hx
  rw [hs] at e1
  cases e1
  have := e4 v
  rw [shape_canon (c := c), hv] at this
  exact Option.map_eq_none_iff.mp this

/-- C109: a model without entries whose name is no text is read as materials. -/
theorem C109_model (d : ModlData) (v : J) (he : d.entries = []) (hv : ∀ s, v ≠ .str s) :
    DataFile.fromJson (J.put v [2] (DataFile.modl d).toJson) = some (.matl ⟨d.major_version, d.minor_version, []⟩) := by
  have hc : ModlData.shape.canon (DataFile.modl d).toJson = some (DataFile.modl d).toJson := by
    rw [shape_canon (c := ModlData.json)]
    exact congrArg _ (ModlData.json_law.back d)
  have h4 : ModlData.json.de (J.put v [2] (DataFile.modl d).toJson) = none :=
    not_de (s' := .text) dataShapes_good.2.2.2.1 hc (x := .str d.model_name) rfl rfl
      (by cases v <;> first | rfl | exact absurd rfl (hv _))
  obtain ⟨a, b, n, sk, mats, an, me, es⟩ := d
  obtain rfl : es = [] := he
  have h1 : MeshData.json.de (J.put v [2] (DataFile.modl ⟨a, b, n, sk, mats, an, me, []⟩).toJson) = none := mesh_needs rfl
  have h2 : SkelData.json.de (J.put v [2] (DataFile.modl ⟨a, b, n, sk, mats, an, me, []⟩).toJson) = none := skel_needs rfl
  have h3 : AnimData.json.de (J.put v [2] (DataFile.modl ⟨a, b, n, sk, mats, an, me, []⟩).toJson) = none := anim_needs rfl
  have h5 : MatlData.json.de (J.put v [2] (DataFile.modl ⟨a, b, n, sk, mats, an, me, []⟩).toJson) = some ⟨a, b, []⟩ :=
    struct_de rfl (and_de (field_de rfl (x := a) (JLaw.u16.back a)) (and_de (field_de rfl (x := b) (JLaw.u16.back b))
      (field_de (j := .arr []) rfl rfl)))
  simp only [DataFile.fromJson, h1, h2, h3, h4, h5]
  rfl

/-- C109: materials without entries whose version is not accepted are read as adjacency data. -/
theorem C109_materials (d : MatlData) (n : Nat) (v : J) (hn : n < 2) (he : d.entries = []) (hv : JCodec.u16.de v = none) :
    DataFile.fromJson (J.put v [n] (DataFile.matl d).toJson) = some (.adj ⟨[]⟩) := by
  obtain ⟨a, b, es⟩ := d
  obtain rfl : es = [] := he
  have hc : MatlData.shape.canon (DataFile.matl ⟨a, b, []⟩).toJson = some (DataFile.matl ⟨a, b, []⟩).toJson := by
    rw [shape_canon (c := MatlData.json)]
    exact congrArg _ (MatlData.json_law.back ⟨a, b, []⟩)
  have hv' : (Shape.int 0 65535).canon v = none := by
    rw [shape_canon (c := JCodec.u16), hv]
    rfl
  have key : ∀ x y : J, MatlData.json.de (.obj [("major_version", x), ("minor_version", y), ("entries", .arr [])]) = none →
      DataFile.fromJson (.obj [("major_version", x), ("minor_version", y), ("entries", .arr [])]) = some (.adj ⟨[]⟩) := by
    intro x y h5
    have h8 : AdjData.json.de (.obj [("major_version", x), ("minor_version", y), ("entries", .arr [])]) = some ⟨[]⟩ :=
      struct_de rfl (field_de (j := .arr []) rfl rfl)
    rw [DataFile.fromJson, mesh_needs rfl, skel_needs rfl, anim_needs rfl, modl_needs rfl, h5, hlpb_needs rfl, meshExData_needs rfl, h8]
    rfl
  obtain rfl | rfl : n = 0 ∨ n = 1 := by omega
  · exact key _ _ (not_de (p := [0]) dataShapes_good.2.2.2.2.1 hc (x := JCodec.u16.ser a) rfl rfl hv')
  · exact key _ _ (not_de (p := [1]) dataShapes_good.2.2.2.2.1 hc (x := JCodec.u16.ser b) rfl rfl hv')

/-! ## Examples -/

/-- A skeleton with one bone. -/
def partsSkel : DataFile := .skel ⟨1, 0, [⟨"Trans", ⟨⟨0x3f800000, 0, 0, 0⟩, ⟨0, 0x3f800000, 0, 0⟩, ⟨0, 0, 0x3f800000, 0⟩,
  ⟨0x40400000, 0, 0, 0x3f800000⟩⟩, none, .Disabled⟩]⟩

/-- The name of the bone, a number of its transform, its missing parent and its billboard type: the shapes of the parts, what they
accept and what not. -/
example : fileFinite partsSkel = true ∧ partsSkel.toJson.get [2, 0, 0] = some (.str "Trans") ∧
    partsSkel.toJson.get [2, 0, 1, 3, 0] = some (.flt 0x40400000) ∧ partsSkel.toJson.get [2, 0, 2] = some .null ∧
    SkelData.shape.part partsSkel.toJson [2, 0, 0] = some .text ∧ SkelData.shape.part partsSkel.toJson [2, 0, 1, 3, 0] = some .float ∧
    SkelData.shape.part partsSkel.toJson [2, 0, 2] = some (.opt (.int 0 18446744073709551615)) ∧
    SkelData.shape.part partsSkel.toJson [2, 0, 3] = some Skel.BillboardType.shape ∧
    Shape.canon .float (.num 3) = some (.flt 0x40400000) ∧ Shape.canon .float (.str "3") = none ∧
    Shape.canon (.opt (.int 0 18446744073709551615)) (.num (-1)) = none ∧
    Skel.BillboardType.shape.canon (.str "XAxisViewPointAligned") = some (.str "XAxisViewPointAligned") ∧
    Skel.BillboardType.shape.canon (.str "Nothing") = none := by
  refine ⟨by decide +kernel, rfl, rfl, rfl, rfl, rfl, rfl, rfl, by rfl, rfl, rfl, by rfl, by rfl⟩

/-- So the parent can be a number, and the transform cannot have a text. -/
example : (∃ g, DataFile.fromJson (J.put (.num 0) [2, 0, 2] partsSkel.toJson) = some g ∧ dataType g = "SkelData" ∧
    g.toJson = J.put (.num 0) [2, 0, 2] partsSkel.toJson) ∧
    DataFile.fromJson (J.put (.str "3") [2, 0, 1, 3, 0] partsSkel.toJson) = none := by
  constructor
  · obtain ⟨s0, s, h1, h2, -, h4, -⟩ := C109_data_file partsSkel .null [2, 0, 2] (by decide +kernel) (by simp) rfl
    simp only [dataShapes, partsSkel, dataType, List.mem_cons, Prod.mk.injEq, String.reduceEq, false_and, true_and, false_or, or_false,
      List.not_mem_nil] at h1
    subst h1
    cases h2.symm.trans (show SkelData.shape.part partsSkel.toJson [2, 0, 2] = some (.opt (.int 0 18446744073709551615)) from rfl)
    obtain ⟨g, e1, e2, e3, -⟩ := h4 (.num 0) (.num 0) rfl
    exact ⟨g, e1, e2, e3⟩
  · obtain ⟨s0, s, h1, h2, -, -, h5⟩ := C109_data_file partsSkel (.flt 0x40400000) [2, 0, 1, 3, 0] (by decide +kernel) (by simp) rfl
    simp only [dataShapes, partsSkel, dataType, List.mem_cons, Prod.mk.injEq, String.reduceEq, false_and, true_and, false_or, or_false,
      List.not_mem_nil] at h1
    subst h1
    cases h2.symm.trans (show SkelData.shape.part partsSkel.toJson [2, 0, 1, 3, 0] = some .float from rfl)
    exact h5 (by decide) (by decide) (.str "3") rfl

/-- A part of a library file: the version of a variant of a choice, with a name in a pointer. -/
example : fileKept.fin (jsonModl (str "a") none) = true ∧
    (jsonModl (str "a") none).toJson.get [0, 0, 0] = some (.str "a") ∧
    Ssbh.shape.part (jsonModl (str "a") none).toJson [0, 0, 0] = some (.opt .ctext) := by
  refine ⟨by decide +kernel, by rfl, by rfl⟩

/-- A model without entries and with a number as name, and materials with a text as version. -/
example : DataFile.fromJson (J.put (.num 5) [2] (DataFile.modl ⟨1, 7, "m", "s", [], none, "n", []⟩).toJson) = some (.matl ⟨1, 7, []⟩) ∧
    DataFile.fromJson (J.put (.str "6") [1] (DataFile.matl ⟨1, 6, []⟩).toJson) = some (.adj ⟨[]⟩) :=
  ⟨C109_model _ _ rfl (fun s h => nomatch h), C109_materials _ 1 _ (by decide) rfl rfl⟩

end Verif.Props
