import Verif.Json.EditData
import Verif.Props.JsonGrammar
/-!
# C107: editing a JSON file by hand

`J.get` and `J.put` in `Json/Edit.lean` are the specification: the part of a value at a path, and the value with another part there.
-/

namespace Verif.Props
open Verif Verif.Json

/-- C107: every part of a JSON value has a piece of the text that is read as this part. Replacing this piece by
any text of another value, and nothing else, gives a text that is read as the value with only this part replaced, unless the result is nested
too deep. -/
theorem C107_edit (s : String) (j v : J) (p : List Nat) (hs : fromText s = some j) (hv : j.get p = some v) :
    ∃ pre t post : List Char, s.toList = pre ++ (t ++ post) ∧ fromText (String.ofList t) = some v ∧
      ∀ (t' : List Char) (v' : J), fromText (String.ofList t') = some v' → (J.put v' p j).depth ≤ 127 →
        fromText (String.ofList (pre ++ (t' ++ post))) = some (J.put v' p j) := by
  obtain ⟨hd, a, x, b, e, ha, hx, hb⟩ := (C105_grammar s j).mp hs
  obtain ⟨pre, t, post, rfl, ht, hput⟩ := spells_hole p hx hv
  refine ⟨a ++ pre, t, post ++ b, by rw [e]; simp only [List.append_assoc], ?_, fun t' v' ht' hd' => ?_⟩
  · refine (C105_grammar _ v).mpr ⟨(depth_get p hv).trans hd, [], t, [], ?_, (fun c hc => nomatch hc), ht, (fun c hc => nomatch hc)⟩
    rw [String.toList_ofList, List.append_nil, List.nil_append]
  · obtain ⟨-, h⟩ := (C105_grammar _ v').mp ht'
    rw [String.toList_ofList] at h
    obtain ⟨a2, y, b2, e2, ha2, hy, hb2⟩ := hput v' t' h
    refine (C105_grammar _ _).mpr ⟨hd', a ++ a2, y, b2 ++ b, ?_, space_append ha ha2, hy, space_append hb2 hb⟩
    rw [String.toList_ofList]
    calc a ++ pre ++ (t' ++ (post ++ b)) = a ++ ((pre ++ (t' ++ post)) ++ b) := by simp only [List.append_assoc]
      _ = _ := by rw [e2]; simp only [List.append_assoc]

/-- C107: the part that was put is there, and all other parts remain. -/
theorem C107_parts (j v v' : J) (p : List Nat) (h : j.get p = some v) :
    (J.put v' p j).get p = some v' ∧ J.put v p j = j ∧
    ∀ q, ¬ p <+: q → ¬ q <+: p → (J.put v' p j).get q = j.get q :=
  ⟨get_put p h, put_get p h, fun q => get_put_other p q j v'⟩

/-- The second component of the first vector of an object is replaced, with spaces around the new text, and the name that occurs twice is
not a problem. -/
example : ∃ j, fromText "{\"a\": [1, 2.5, [3]], \"a\": null}" = some j ∧ j.get [0, 1] = some (.flt 0x40200000) ∧
    (J.put (.arr []) [0, 1] j).depth ≤ 127 ∧ fromText " [ ] " = some (.arr []) ∧
    J.put (.arr []) [0, 1] j = .obj [("a", .arr [.num 1, .arr [], .arr [.num 3]]), ("a", .null)] ∧
    fromText "{\"a\": [1,  [ ] , [3]], \"a\": null}" = some (J.put (.arr []) [0, 1] j) ∧
    (J.put (.arr []) [0, 1] j).get [0, 2] = j.get [0, 2] ∧ ¬ [0, 1] <+: [0, 2] ∧ ¬ [0, 2] <+: [0, 1] := by
  refine ⟨.obj [("a", .arr [.num 1, .flt 0x40200000, .arr [.num 3]]), ("a", .null)], reads (by decide +kernel), rfl, by decide,
    reads (by decide +kernel), rfl, reads (by decide +kernel), rfl, by decide, by decide⟩

/-! ## Data -/

/-- In the JSON of a file with the elements `l`, the text of any element can be replaced by any text that is accepted for an element, also one
that no program has written. The whole is accepted as the same data with only this element replaced. -/
def Editable (c : JCodec α) (file : List α → DataFile) : Prop :=
  ∀ (s : String) (l : List α) (i : Nat) (x : α), fileFinite (file l) = true → fromText s = some (file l).toJson → l[i]? = some x →
    ∃ pre t post : List Char, s.toList = pre ++ (t ++ post) ∧ fromText (String.ofList t) = some (c.ser x) ∧
      ∀ (t' : List Char) (v' : J) (x' : α), fromText (String.ofList t') = some v' → c.de v' = some x' → v'.depth ≤ 125 →
        (fromText (String.ofList (pre ++ (t' ++ post)))).bind DataFile.fromJson = some (file (l.set i x'))

theorem editable {c : JCodec α} {fin : α → Bool} (law : JLaw c (.exact fin)) {file : List α → DataFile} (E : List α → List (String × J))
    (k : Nat) (n : String) (h1 : ∀ l, (file l).toJson = .obj (E l)) (h2 : ∀ l, (E l)[k]? = some (n, .arr (l.map c.ser)))
    (h3 : ∀ l, fileFinite (file l) = true → l.all fin = true)
    (h4 : ∀ l L m, fileFinite (file l) = true → JCodec.deList c L = some m →
      DataFile.fromJson (.obj ((E l).set k (n, .arr L))) = some (file m)) : Editable c file := by
  intro s l i x hl hs hx
  have hg : (file l).toJson.get [k, i] = some (c.ser x) := by
    rw [h1, J.get, h2, Option.bind_some, J.get, List.getElem?_map, hx]
    rfl
  obtain ⟨pre, t, post, e, ht, h⟩ := C107_edit s _ _ [k, i] hs hg
  refine ⟨pre, t, post, e, ht, fun t' v' x' ht' hv hd => ?_⟩
  have hd0 := ((C105_grammar _ _).mp hs).1
  have hd1 := depth_put (v := v') [k, i] (file l).toJson
  rw [h t' v' ht' (hd1.trans (by simp only [List.length_cons, List.length_nil]; omega)), Option.bind_some, h1, J.put,
    modify_set _ (h2 l), J.put]
  exact h4 l _ _ hl (list_de hv i (list_back law l (h3 l hl)))

/-- C107: the elements of the lists of all data files. -/
theorem C107_elements :
    (∀ d : MeshData, Editable MeshData.MeshObjectData.json fun l => .mesh { d with objects := l }) ∧
    (∀ d : SkelData, Editable SkelData.BoneData.json fun l => .skel { d with bones := l }) ∧
    (∀ d : AnimData, Editable AnimData.GroupData.json fun l => .anim { d with groups := l }) ∧
    (∀ d : ModlData, Editable ModlData.ModlEntryData.json fun l => .modl { d with entries := l }) ∧
    (∀ d : MatlData, Editable MatlData.MatlEntryData.json fun l => .matl { d with entries := l }) ∧
    (∀ d : HlpbData, Editable HlpbData.AimConstraintData.json fun l => .hlpb { d with aim_constraints := l }) ∧
    (∀ d : HlpbData, Editable HlpbData.OrientConstraintData.json fun l => .hlpb { d with orient_constraints := l }) ∧
    (∀ d : MeshExData, Editable MeshExData.MeshObjectGroupData.json fun l => .meshEx { d with mesh_object_groups := l }) ∧
    (∀ d : AdjData, Editable AdjEntryData.json fun l => .adj { d with entries := l }) := by
  refine ⟨fun d => ?_, fun d => ?_, fun d => ?_, fun d => ?_, fun d => ?_, fun d => ?_, fun d => ?_, fun d => ?_, fun d => ?_⟩
  · refine editable MeshData.MeshObjectData.json_law (fun l => [("major_version", JCodec.u16.ser d.major_version), ("minor_version",
      JCodec.u16.ser d.minor_version), ("objects", .arr (l.map MeshData.MeshObjectData.json.ser))]) 2 "objects" (fun _ => rfl) (fun _ =>
      rfl) (fun l h => (by simpa only [fileFinite, MeshData.finite, Bool.and_eq_true] using h)) fun l L m hl h => ?_
    simp only [List.set_cons_succ, List.set_cons_zero]
    have e : MeshData.json.de (.obj [("major_version", JCodec.u16.ser d.major_version), ("minor_version", JCodec.u16.ser d.minor_version),
        ("objects", .arr L)]) = some { d with objects := m } := struct_de rfl (and_de (field_de rfl (x := d.major_version) (JLaw.u16.back
        d.major_version)) (and_de (field_de rfl (x := d.minor_version) (JLaw.u16.back d.minor_version)) (field_de (j := .arr L) rfl h)))
    simp only [DataFile.fromJson, e]
    rfl
  · refine editable SkelData.BoneData.json_law (fun l => [("major_version", JCodec.u16.ser d.major_version), ("minor_version",
      JCodec.u16.ser d.minor_version), ("bones", .arr (l.map SkelData.BoneData.json.ser))]) 2 "bones" (fun _ => rfl) (fun _ => rfl) (fun l
      h => (by simpa only [fileFinite, SkelData.finite, Bool.and_eq_true] using h)) fun l L m hl h => ?_
    simp only [List.set_cons_succ, List.set_cons_zero]
    have e1 : MeshData.json.de (.obj [("major_version", JCodec.u16.ser d.major_version), ("minor_version", JCodec.u16.ser d.minor_version),
        ("bones", .arr L)]) = none := mesh_needs rfl
    have e : SkelData.json.de (.obj [("major_version", JCodec.u16.ser d.major_version), ("minor_version", JCodec.u16.ser d.minor_version),
        ("bones", .arr L)]) = some { d with bones := m } := struct_de rfl (and_de (field_de rfl (x := d.major_version) (JLaw.u16.back
        d.major_version)) (and_de (field_de rfl (x := d.minor_version) (JLaw.u16.back d.minor_version)) (field_de (j := .arr L) rfl h)))
    simp only [DataFile.fromJson, e1, e]
    rfl
  · refine editable AnimData.GroupData.json_law (fun l => [("major_version", JCodec.u16.ser d.major_version), ("minor_version",
      JCodec.u16.ser d.minor_version), ("final_frame_index", JCodec.f32.ser d.final_frame_index), ("groups", .arr (l.map
      AnimData.GroupData.json.ser))]) 3 "groups" (fun _ => rfl) (fun _ => rfl) (fun l h => (Bool.and_eq_true_iff.mp h).2) fun l L m hl h => ?_
    simp only [List.set_cons_succ, List.set_cons_zero]
    have e1 : MeshData.json.de (.obj [("major_version", JCodec.u16.ser d.major_version), ("minor_version", JCodec.u16.ser d.minor_version),
        ("final_frame_index", JCodec.f32.ser d.final_frame_index), ("groups", .arr L)]) = none := mesh_needs rfl
    have e2 : SkelData.json.de (.obj [("major_version", JCodec.u16.ser d.major_version), ("minor_version", JCodec.u16.ser d.minor_version),
        ("final_frame_index", JCodec.f32.ser d.final_frame_index), ("groups", .arr L)]) = none := skel_needs rfl
    simp only [fileFinite, AnimData.finite, Bool.and_eq_true] at hl
    have FFI := JLaw.f32.back d.final_frame_index
    rw [show JSpec.float.back d.final_frame_index = bif finite d.final_frame_index then some d.final_frame_index else none from rfl, hl.1] at FFI
    have e : AnimData.json.de (.obj [("major_version", JCodec.u16.ser d.major_version), ("minor_version", JCodec.u16.ser d.minor_version),
        ("final_frame_index", JCodec.f32.ser d.final_frame_index), ("groups", .arr L)]) = some { d with groups := m } := struct_de rfl
        (and_de (field_de rfl (x := d.major_version) (JLaw.u16.back d.major_version)) (and_de (field_de rfl (x := d.minor_version)
        (JLaw.u16.back d.minor_version)) (and_de (field_de rfl (x := d.final_frame_index) FFI) (field_de (j := .arr L) rfl h))))
    simp only [DataFile.fromJson, e1, e2, e]
    rfl
  · refine editable ModlData.ModlEntryData.json_law (fun l => [("major_version", JCodec.u16.ser d.major_version), ("minor_version",
      JCodec.u16.ser d.minor_version), ("model_name", JCodec.string.ser d.model_name), ("skeleton_file_name", JCodec.string.ser
      d.skeleton_file_name), ("material_file_names", (JCodec.vec JCodec.string).ser d.material_file_names), ("animation_file_name",
      (JCodec.option JCodec.string).ser d.animation_file_name), ("mesh_file_name", JCodec.string.ser d.mesh_file_name), ("entries", .arr
      (l.map ModlData.ModlEntryData.json.ser))]) 7 "entries" (fun _ => rfl) (fun _ => rfl) (fun l h => (List.all_eq_true.mpr fun _ _ =>
      rfl)) fun l L m hl h => ?_
    simp only [List.set_cons_succ, List.set_cons_zero]
    have e1 : MeshData.json.de (.obj [("major_version", JCodec.u16.ser d.major_version), ("minor_version", JCodec.u16.ser d.minor_version),
        ("model_name", JCodec.string.ser d.model_name), ("skeleton_file_name", JCodec.string.ser d.skeleton_file_name),
        ("material_file_names", (JCodec.vec JCodec.string).ser d.material_file_names), ("animation_file_name", (JCodec.option
        JCodec.string).ser d.animation_file_name), ("mesh_file_name", JCodec.string.ser d.mesh_file_name), ("entries", .arr L)]) = none :=
        mesh_needs rfl
    have e2 : SkelData.json.de (.obj [("major_version", JCodec.u16.ser d.major_version), ("minor_version", JCodec.u16.ser d.minor_version),
        ("model_name", JCodec.string.ser d.model_name), ("skeleton_file_name", JCodec.string.ser d.skeleton_file_name),
        ("material_file_names", (JCodec.vec JCodec.string).ser d.material_file_names), ("animation_file_name", (JCodec.option
        JCodec.string).ser d.animation_file_name), ("mesh_file_name", JCodec.string.ser d.mesh_file_name), ("entries", .arr L)]) = none :=
        skel_needs rfl
    have e3 : AnimData.json.de (.obj [("major_version", JCodec.u16.ser d.major_version), ("minor_version", JCodec.u16.ser d.minor_version),
        ("model_name", JCodec.string.ser d.model_name), ("skeleton_file_name", JCodec.string.ser d.skeleton_file_name),
        ("material_file_names", (JCodec.vec JCodec.string).ser d.material_file_names), ("animation_file_name", (JCodec.option
        JCodec.string).ser d.animation_file_name), ("mesh_file_name", JCodec.string.ser d.mesh_file_name), ("entries", .arr L)]) = none :=
        anim_needs rfl
    have ANIMF : (JCodec.option JCodec.string).de ((JCodec.option JCodec.string).ser d.animation_file_name) = some d.animation_file_name := by
      cases d.animation_file_name <;> rfl
    have e : ModlData.json.de (.obj [("major_version", JCodec.u16.ser d.major_version), ("minor_version", JCodec.u16.ser d.minor_version),
        ("model_name", JCodec.string.ser d.model_name), ("skeleton_file_name", JCodec.string.ser d.skeleton_file_name),
        ("material_file_names", (JCodec.vec JCodec.string).ser d.material_file_names), ("animation_file_name", (JCodec.option
        JCodec.string).ser d.animation_file_name), ("mesh_file_name", JCodec.string.ser d.mesh_file_name), ("entries", .arr L)]) = some { d
        with entries := m } := struct_de rfl (and_de (field_de rfl (x := d.major_version) (JLaw.u16.back d.major_version)) (and_de
        (field_de rfl (x := d.minor_version) (JLaw.u16.back d.minor_version)) (and_de (field_de rfl (x := d.model_name) (JLaw.string.back
        d.model_name)) (and_de (field_de rfl (x := d.skeleton_file_name) (JLaw.string.back d.skeleton_file_name)) (and_de (field_de rfl (x
        := d.material_file_names) (list_back (fin := fun _ => true) JLaw.string _ (List.all_eq_true.mpr fun _ _ => rfl))) (and_de (field_de
        rfl (x := d.animation_file_name) ANIMF) (and_de (field_de rfl (x := d.mesh_file_name) (JLaw.string.back d.mesh_file_name))
        (field_de (j := .arr L) rfl h))))))))
    simp only [DataFile.fromJson, e1, e2, e3, e]
    rfl
  · refine editable MatlData.MatlEntryData.json_law (fun l => [("major_version", JCodec.u16.ser d.major_version), ("minor_version",
      JCodec.u16.ser d.minor_version), ("entries", .arr (l.map MatlData.MatlEntryData.json.ser))]) 2 "entries" (fun _ => rfl) (fun _ =>
      rfl) (fun l h => (by simpa only [fileFinite, MatlData.finite, Bool.and_eq_true] using h)) fun l L m hl h => ?_
    simp only [List.set_cons_succ, List.set_cons_zero]
    have e1 : MeshData.json.de (.obj [("major_version", JCodec.u16.ser d.major_version), ("minor_version", JCodec.u16.ser d.minor_version),
        ("entries", .arr L)]) = none := mesh_needs rfl
    have e2 : SkelData.json.de (.obj [("major_version", JCodec.u16.ser d.major_version), ("minor_version", JCodec.u16.ser d.minor_version),
        ("entries", .arr L)]) = none := skel_needs rfl
    have e3 : AnimData.json.de (.obj [("major_version", JCodec.u16.ser d.major_version), ("minor_version", JCodec.u16.ser d.minor_version),
        ("entries", .arr L)]) = none := anim_needs rfl
    have e4 : ModlData.json.de (.obj [("major_version", JCodec.u16.ser d.major_version), ("minor_version", JCodec.u16.ser d.minor_version),
        ("entries", .arr L)]) = none := modl_needs rfl
    have e : MatlData.json.de (.obj [("major_version", JCodec.u16.ser d.major_version), ("minor_version", JCodec.u16.ser d.minor_version),
        ("entries", .arr L)]) = some { d with entries := m } := struct_de rfl (and_de (field_de rfl (x := d.major_version) (JLaw.u16.back
        d.major_version)) (and_de (field_de rfl (x := d.minor_version) (JLaw.u16.back d.minor_version)) (field_de (j := .arr L) rfl h)))
    simp only [DataFile.fromJson, e1, e2, e3, e4, e]
    rfl
  · refine editable HlpbData.AimConstraintData.json_law (fun l => [("major_version", JCodec.u16.ser d.major_version), ("minor_version",
      JCodec.u16.ser d.minor_version), ("aim_constraints", .arr (l.map HlpbData.AimConstraintData.json.ser)), ("orient_constraints",
      (JCodec.vec HlpbData.OrientConstraintData.json).ser d.orient_constraints)]) 2 "aim_constraints" (fun _ => rfl) (fun _ => rfl) (fun l
      h => (Bool.and_eq_true_iff.mp h).1) fun l L m hl h => ?_
    simp only [List.set_cons_succ, List.set_cons_zero]
    have e1 : MeshData.json.de (.obj [("major_version", JCodec.u16.ser d.major_version), ("minor_version", JCodec.u16.ser d.minor_version),
        ("aim_constraints", .arr L), ("orient_constraints", (JCodec.vec HlpbData.OrientConstraintData.json).ser d.orient_constraints)]) =
        none := mesh_needs rfl
    have e2 : SkelData.json.de (.obj [("major_version", JCodec.u16.ser d.major_version), ("minor_version", JCodec.u16.ser d.minor_version),
        ("aim_constraints", .arr L), ("orient_constraints", (JCodec.vec HlpbData.OrientConstraintData.json).ser d.orient_constraints)]) =
        none := skel_needs rfl
    have e3 : AnimData.json.de (.obj [("major_version", JCodec.u16.ser d.major_version), ("minor_version", JCodec.u16.ser d.minor_version),
        ("aim_constraints", .arr L), ("orient_constraints", (JCodec.vec HlpbData.OrientConstraintData.json).ser d.orient_constraints)]) =
        none := anim_needs rfl
    have e4 : ModlData.json.de (.obj [("major_version", JCodec.u16.ser d.major_version), ("minor_version", JCodec.u16.ser d.minor_version),
        ("aim_constraints", .arr L), ("orient_constraints", (JCodec.vec HlpbData.OrientConstraintData.json).ser d.orient_constraints)]) =
        none := modl_needs rfl
    have e5 : MatlData.json.de (.obj [("major_version", JCodec.u16.ser d.major_version), ("minor_version", JCodec.u16.ser d.minor_version),
        ("aim_constraints", .arr L), ("orient_constraints", (JCodec.vec HlpbData.OrientConstraintData.json).ser d.orient_constraints)]) =
        none := matl_needs rfl
    simp only [fileFinite, HlpbData.finite, Bool.and_eq_true] at hl
    have OC := list_back HlpbData.OrientConstraintData.json_law _ hl.2
    have e : HlpbData.json.de (.obj [("major_version", JCodec.u16.ser d.major_version), ("minor_version", JCodec.u16.ser d.minor_version),
        ("aim_constraints", .arr L), ("orient_constraints", (JCodec.vec HlpbData.OrientConstraintData.json).ser d.orient_constraints)]) =
        some { d with aim_constraints := m } := struct_de rfl (and_de (field_de rfl (x := d.major_version) (JLaw.u16.back d.major_version))
        (and_de (field_de rfl (x := d.minor_version) (JLaw.u16.back d.minor_version)) (and_de (field_de (j := .arr L) rfl h) (field_de rfl
        (x := d.orient_constraints) OC))))
    simp only [DataFile.fromJson, e1, e2, e3, e4, e5, e]
    rfl
  · refine editable HlpbData.OrientConstraintData.json_law (fun l => [("major_version", JCodec.u16.ser d.major_version), ("minor_version",
      JCodec.u16.ser d.minor_version), ("aim_constraints", (JCodec.vec HlpbData.AimConstraintData.json).ser d.aim_constraints),
      ("orient_constraints", .arr (l.map HlpbData.OrientConstraintData.json.ser))]) 3 "orient_constraints" (fun _ => rfl) (fun _ => rfl)
      (fun l h => (Bool.and_eq_true_iff.mp h).2) fun l L m hl h => ?_
    simp only [List.set_cons_succ, List.set_cons_zero]
    have e1 : MeshData.json.de (.obj [("major_version", JCodec.u16.ser d.major_version), ("minor_version", JCodec.u16.ser d.minor_version),
        ("aim_constraints", (JCodec.vec HlpbData.AimConstraintData.json).ser d.aim_constraints), ("orient_constraints", .arr L)]) = none :=
        mesh_needs rfl
    have e2 : SkelData.json.de (.obj [("major_version", JCodec.u16.ser d.major_version), ("minor_version", JCodec.u16.ser d.minor_version),
        ("aim_constraints", (JCodec.vec HlpbData.AimConstraintData.json).ser d.aim_constraints), ("orient_constraints", .arr L)]) = none :=
        skel_needs rfl
    have e3 : AnimData.json.de (.obj [("major_version", JCodec.u16.ser d.major_version), ("minor_version", JCodec.u16.ser d.minor_version),
        ("aim_constraints", (JCodec.vec HlpbData.AimConstraintData.json).ser d.aim_constraints), ("orient_constraints", .arr L)]) = none :=
        anim_needs rfl
    have e4 : ModlData.json.de (.obj [("major_version", JCodec.u16.ser d.major_version), ("minor_version", JCodec.u16.ser d.minor_version),
        ("aim_constraints", (JCodec.vec HlpbData.AimConstraintData.json).ser d.aim_constraints), ("orient_constraints", .arr L)]) = none :=
        modl_needs rfl
    have e5 : MatlData.json.de (.obj [("major_version", JCodec.u16.ser d.major_version), ("minor_version", JCodec.u16.ser d.minor_version),
        ("aim_constraints", (JCodec.vec HlpbData.AimConstraintData.json).ser d.aim_constraints), ("orient_constraints", .arr L)]) = none :=
        matl_needs rfl
    simp only [fileFinite, HlpbData.finite, Bool.and_eq_true] at hl
    have AC := list_back HlpbData.AimConstraintData.json_law _ hl.1
    have e : HlpbData.json.de (.obj [("major_version", JCodec.u16.ser d.major_version), ("minor_version", JCodec.u16.ser d.minor_version),
        ("aim_constraints", (JCodec.vec HlpbData.AimConstraintData.json).ser d.aim_constraints), ("orient_constraints", .arr L)]) = some {
        d with orient_constraints := m } := struct_de rfl (and_de (field_de rfl (x := d.major_version) (JLaw.u16.back d.major_version))
        (and_de (field_de rfl (x := d.minor_version) (JLaw.u16.back d.minor_version)) (and_de (field_de rfl (x := d.aim_constraints) AC)
        (field_de (j := .arr L) rfl h))))
    simp only [DataFile.fromJson, e1, e2, e3, e4, e5, e]
    rfl
  · refine editable MeshExData.MeshObjectGroupData.json_law (fun l => [("mesh_object_groups", .arr (l.map
      MeshExData.MeshObjectGroupData.json.ser))]) 0 "mesh_object_groups" (fun _ => rfl) (fun _ => rfl) (fun l h => (by simpa only
      [fileFinite, MeshExData.finite, Bool.and_eq_true] using h)) fun l L m hl h => ?_
    simp only [List.set_cons_succ, List.set_cons_zero]
    have e1 : MeshData.json.de (.obj [("mesh_object_groups", .arr L)]) = none := mesh_needs rfl
    have e2 : SkelData.json.de (.obj [("mesh_object_groups", .arr L)]) = none := skel_needs rfl
    have e3 : AnimData.json.de (.obj [("mesh_object_groups", .arr L)]) = none := anim_needs rfl
    have e4 : ModlData.json.de (.obj [("mesh_object_groups", .arr L)]) = none := modl_needs rfl
    have e5 : MatlData.json.de (.obj [("mesh_object_groups", .arr L)]) = none := matl_needs rfl
    have e6 : HlpbData.json.de (.obj [("mesh_object_groups", .arr L)]) = none := hlpb_needs rfl
    have e : MeshExData.json.de (.obj [("mesh_object_groups", .arr L)]) = some { d with mesh_object_groups := m } := struct_de rfl
        (field_de (j := .arr L) rfl h)
    simp only [DataFile.fromJson, e1, e2, e3, e4, e5, e6, e]
    rfl
  · refine editable AdjEntryData.json_law (fun l => [("entries", .arr (l.map AdjEntryData.json.ser))]) 0 "entries" (fun _ => rfl) (fun _ =>
      rfl) (fun l h => (by simpa only [fileFinite, AdjData.finite, Bool.and_eq_true] using h)) fun l L m hl h => ?_
    simp only [List.set_cons_succ, List.set_cons_zero]
    have e1 : MeshData.json.de (.obj [("entries", .arr L)]) = none := mesh_needs rfl
    have e2 : SkelData.json.de (.obj [("entries", .arr L)]) = none := skel_needs rfl
    have e3 : AnimData.json.de (.obj [("entries", .arr L)]) = none := anim_needs rfl
    have e4 : ModlData.json.de (.obj [("entries", .arr L)]) = none := modl_needs rfl
    have e5 : MatlData.json.de (.obj [("entries", .arr L)]) = none := matl_needs' rfl
    have e6 : HlpbData.json.de (.obj [("entries", .arr L)]) = none := hlpb_needs rfl
    have e7 : MeshExData.json.de (.obj [("entries", .arr L)]) = none := meshExData_needs rfl
    have e : AdjData.json.de (.obj [("entries", .arr L)]) = some { d with entries := m } := struct_de rfl (field_de (j := .arr L) rfl h)
    simp only [DataFile.fromJson, e1, e2, e3, e4, e5, e6, e7, e]
    rfl

/-- The hypotheses are met, and the new text is in another order with a name that is ignored. -/
example : fileFinite (.adj ⟨[⟨0, [1, -1]⟩]⟩) = true ∧
    fromText "{\"entries\": [{\"mesh_object_index\": 0, \"vertex_adjacency\": [1, -1]}]}" =
      some (DataFile.adj ⟨[⟨0, [1, -1]⟩]⟩).toJson ∧
    fromText " {\"vertex_adjacency\": [], \"x\": null, \"mesh_object_index\": 7}" =
      some (.obj [("vertex_adjacency", .arr []), ("x", .null), ("mesh_object_index", .num 7)]) ∧
    AdjEntryData.json.de (.obj [("vertex_adjacency", .arr []), ("x", .null), ("mesh_object_index", .num 7)]) = some ⟨7, []⟩ :=
  ⟨by decide, reads (by decide +kernel), reads (by decide +kernel), by decide +kernel⟩

/-! ## Programs -/

/-- C107: so ssbh_lib_json makes of the edited file what it makes of any text of the value with this part replaced. -/
theorem C107_lib (T : J → String) (s s' : String) (j v : J) (π : List Nat) (hs : fromText s = some j) (hv : j.get π = some v) :
    ∃ pre t post : List Char, s.toList = pre ++ (t ++ post) ∧ fromText (String.ofList t) = some v ∧
      ∀ (t' : List Char) (v' : J), fromText (String.ofList t') = some v' → fromText s' = some (J.put v' π j) →
      ∀ (p : Path) (out : Option Path) (d : Disk), p.extension = some "json" →
        (libMain ⟨T, fromText⟩ p out (d.set p (textBytes (String.ofList (pre ++ (t' ++ post)))))).1 =
          (libMain ⟨T, fromText⟩ p out (d.set p (textBytes s'))).1 ∧
        ∀ q, q ≠ p → (libMain ⟨T, fromText⟩ p out (d.set p (textBytes (String.ofList (pre ++ (t' ++ post)))))).2.files q =
          (libMain ⟨T, fromText⟩ p out (d.set p (textBytes s'))).2.files q := by
  obtain ⟨pre, t, post, h1, h2, h3⟩ := C107_edit s j v π hs hv
  refine ⟨pre, t, post, h1, h2, fun t' v' ht' hs' p out d he => ?_⟩
  obtain ⟨hd, h5⟩ := (C105_grammar _ _).mp hs'
  exact C105_lib T _ _ _ hd ((C105_grammar _ _).mp (h3 t' v' ht' hd)).2 h5 p out d he

/-- C107: the same for ssbh_data_json. -/
theorem C107_data (T : J → String) (O : DataOps) (s s' : String) (j v : J) (π : List Nat) (hs : fromText s = some j)
    (hv : j.get π = some v) :
    ∃ pre t post : List Char, s.toList = pre ++ (t ++ post) ∧ fromText (String.ofList t) = some v ∧
      ∀ (t' : List Char) (v' : J), fromText (String.ofList t') = some v' → fromText s' = some (J.put v' π j) →
      ∀ (p : Path) (out : Option Path) (d : Disk), p.extension = some "json" →
        (dataMain ⟨T, fromText⟩ O p out (d.set p (textBytes (String.ofList (pre ++ (t' ++ post)))))).1 =
          (dataMain ⟨T, fromText⟩ O p out (d.set p (textBytes s'))).1 ∧
        ∀ q, q ≠ p → (dataMain ⟨T, fromText⟩ O p out (d.set p (textBytes (String.ofList (pre ++ (t' ++ post)))))).2.files q =
          (dataMain ⟨T, fromText⟩ O p out (d.set p (textBytes s'))).2.files q := by
  obtain ⟨pre, t, post, h1, h2, h3⟩ := C107_edit s j v π hs hv
  refine ⟨pre, t, post, h1, h2, fun t' v' ht' hs' p out d he => ?_⟩
  obtain ⟨hd, h5⟩ := (C105_grammar _ _).mp hs'
  exact C105_data T O _ _ _ hd ((C105_grammar _ _).mp (h3 t' v' ht' hd)).2 h5 p out d he

end Verif.Props
