import Verif.Props.JsonEdit
import Verif.Props.JsonText
import Verif.Props.MeshKept
/-!
# C108: changing a file by editing its JSON
-/

namespace Verif.Props
open Verif Verif.Json

/-- C108: a file is converted with ssbh_data_json, the text of one element is replaced, and the JSON is converted back. The new file is what
saving the data with this element replaced gives, and has the extension of the original. The original is kept, and no other file changes. -/
theorem C108_program {c : JCodec α} {file : List α → DataFile} (hc : Editable c file) (P : Nat → Nat × Int) (hP : Prints P) (O : DataOps)
    (p : Path) (d : Disk) (ext : String) (b : Bytes) (l : List α) (i : Nat) (x : α)
    (he : p.extension = some ext) (hf : d.files p = some b) (ho : Opens O ext b (file l)) (hk : fileFinite (file l) = true)
    (hx : l[i]? = some x) (hext : ∀ l', (file l').extension = (file l).extension) (hm : d.mayCreate (jsonOf p) = true ∧ d.mayCreate (backOf p ext) = true) :
    ∃ (d1 : Disk) (pre t post : List Char), dataMain ⟨toText P, fromText⟩ O p none d = (.done, d1) ∧
      Holds d d1 (jsonOf p) (textBytes (String.ofList (pre ++ (t ++ post)))) ∧ fromText (String.ofList t) = some (c.ser x) ∧
      ∀ (t' : List Char) (v' : J) (x' : α) (b' : Bytes), fromText (String.ofList t') = some v' → c.de v' = some x' → v'.depth ≤ 125 →
        (file (l.set i x')).save O = .ok b' →
        ∀ d2, Holds d1 d2 (jsonOf p) (textBytes (String.ofList (pre ++ (t' ++ post)))) →
        ∃ d3, dataMain ⟨toText P, fromText⟩ O (jsonOf p) none d2 = (.done, d3) ∧ d3.files (backOf p ext) = some b' ∧
          (backOf p ext).extension = some ext ∧ d3.files p = some b ∧
          ∀ q, q ≠ jsonOf p → q ≠ backOf p ext → d3.files q = d.files q := by
  have hp := name_ne he
  have hx' := data_extension (file l)
  have hxe := opens_extension ho
  subst hxe
  rcases C74_data_show ⟨toText P, fromText⟩ O p none d _ he hx'.1 with ⟨b2, g, d1, hb2, hg, h1, hh1⟩ | ⟨_, _, _, hn⟩
  · rw [hf] at hb2
    cases hb2
    have hgf : g.toJson = (file l).toJson := by
      have e1 := (C64_shown O (file l).extension b (file l).toJson).mpr ⟨_, ho, rfl⟩
      have e2 := (C64_shown O (file l).extension b g.toJson).mpr ⟨g, hg, rfl⟩
      rw [e1] at e2
      exact (DataFile.Shown.json.inj e2).symm
    rw [hgf] at hh1
    simp only [Option.getD_none, jsonOf_eq] at hh1
    have ht := C103_data P hP (file l) (C103_sized O _ b _ (.inl ho))
    obtain ⟨pre, t, post, e, htx, hedit⟩ := hc _ l i x hk ht hx
    refine ⟨d1, pre, t, post, h1, by rw [← e, String.ofList_toList]; exact hh1, htx, fun t' v' x' b' h2 h3 h4 h6 d2 hh2 => ?_⟩
    have hm' : d2.mayCreate (backOf p (file l).extension) = true := by rw [hh2.rights, hh1.rights]; exact hm.2
    obtain ⟨d3, h7, hh3⟩ := C74_data_save O _ b' (backOf p (file l).extension) d2 h6 hm'
    refine ⟨d3, ?_, hh3.content, (C74_extension_of _ _).mpr ⟨p.name, hp, hx'.2, rfl⟩, ?_, fun q hq1 hq2 => ?_⟩
    · unfold dataMain
      simp only [jsonOf_extension hp, if_true, hh2.content, Option.bind_some, fromUtf8_textBytes, hedit t' v' x' h2 h3 h4, Option.getD_none,
        jsonOf_with hp, hext, h7]
    · rw [hh3.others _ (backOf_ne p _).symm, hh2.others _ (jsonOf_ne p).symm, hh1.others _ (jsonOf_ne p).symm, hf]
    · rw [hh3.others q hq2, hh2.others q hq1, hh1.others q hq1]
  · have := hn ⟨b, _, hf, ho⟩
    simp only [Option.getD_none, jsonOf_eq] at this
    rw [hm.1] at this
    cases this

/-- The hypotheses are met: the material of a mesh object is replaced by hand, in another order of the fields. -/
example (O : DataOps) : ∃ (b b' : Bytes) (d1 d3 : Disk) (s : String),
    dataMain ⟨toText shortest, fromText⟩ O ⟨"a".toList, "model.numdlb".toList⟩ none (exFolder b) = (.done, d1) ∧
    dataMain ⟨toText shortest, fromText⟩ O ⟨"a".toList, "model.numdlb.json".toList⟩ none
      (d1.set ⟨"a".toList, "model.numdlb.json".toList⟩ (textBytes s)) = (.done, d3) ∧
    d3.files ⟨"a".toList, "model.numdlb.numdlb".toList⟩ = some b' ∧
    ModlData.read b' = .ok ⟨1, 7, "model", "model.nusktb", ["model.numatb"], none, "model.numshb", [⟨"head", 0, "skin"⟩]⟩ := by
  obtain ⟨b, hb⟩ : ∃ b, ModlData.write ⟨1, 7, "model", "model.nusktb", ["model.numatb"], none, "model.numshb", [⟨"head", 0, "mat"⟩]⟩ =
    .ok b := isOk_iff.mp (by decide +kernel)
  obtain ⟨b', hb'⟩ : ∃ b, ModlData.write ⟨1, 7, "model", "model.nusktb", ["model.numatb"], none, "model.numshb", [⟨"head", 0, "skin"⟩]⟩ =
    .ok b := isOk_iff.mp (by decide +kernel)
  have ho : Opens O "numdlb" b modlData := by
    refine ⟨rfl, (C45_modl _ b hb).trans (congrArg Except.ok ?_)⟩
    decide
  have hd : (exFolder b).files ⟨"a".toList, "model.numdlb".toList⟩ = some b := rfl
  obtain ⟨d1, pre, t, post, h1, _, _, h2⟩ := C108_program
    (C107_elements.2.2.2.1 ⟨1, 7, "model", "model.nusktb", ["model.numatb"], none, "model.numshb", []⟩) shortest shortest_prints O
    ⟨"a".toList, "model.numdlb".toList⟩ (exFolder b) "numdlb" b [⟨"head", 0, "mat"⟩] 0 ⟨"head", 0, "mat"⟩ (by decide) hd ho rfl rfl
    (fun _ => rfl) ⟨rfl, rfl⟩
  obtain ⟨d3, h3, h4, _⟩ := h2 "{\"material_label\":\"skin\",\"mesh_object_name\":\"head\",\"mesh_object_subindex\":0}".toList
    (.obj [("material_label", .str "skin"), ("mesh_object_name", .str "head"), ("mesh_object_subindex", .num 0)]) ⟨"head", 0, "skin"⟩ b'
    (by rw [String.ofList_toList]; exact reads (by decide +kernel)) (by decide +kernel) (by decide) hb' _ (holds_set _ _ _)
  exact ⟨b, b', d1, d3, _, h1, h3, h4, (C45_modl _ b' hb').trans (congrArg Except.ok (by decide))⟩

/-! ## The new file -/

/-- What a file keeps of a bone. -/
def storedBone (b : SkelData.BoneData) : SkelData.BoneData :=
  { b with name := cutNul b.name, parent_index := storedParent b.parent_index }

/-- What a file keeps of an entry of a model. -/
def storedEntry (e : ModlData.ModlEntryData) : ModlData.ModlEntryData :=
  { e with mesh_object_name := cutNul e.mesh_object_name, material_label := cutNul e.material_label }

/-- What a file keeps of a group. -/
def storedGroup (g : MeshExData.MeshObjectGroupData) : MeshExData.MeshObjectGroupData :=
  { g with mesh_object_full_name := cutNul g.mesh_object_full_name, mesh_object_name := cutNul g.mesh_object_name }

theorem set_stored {f : α → α} {l : List α} (h : l.map f = l) (i : Nat) (x : α) : (l.set i x).map f = l.set i (f x) := by
  rw [List.map_set, h]

/-- C108: an opened skeleton in which one bone is replaced. Opening the saved file gives the same skeleton with this bone replaced; of the
new bone the text after a NUL is lost, and a parent from 32768 on. -/
theorem C108_skeleton (O : MatOps Matrix4x4) (file : Bytes) (d : SkelData) (hr : SkelData.read file = .ok d) (i : Nat) (x : SkelData.BoneData)
    (b : Bytes) (hw : ({ d with bones := d.bones.set i x } : SkelData).write O = .ok b) :
    SkelData.read b = .ok { d with bones := d.bones.set i (storedBone x) } := by
  obtain ⟨m, _, rfl⟩ := map_ok hr
  rw [C45_skel O _ _ hw]
  cases m with
  | V10 m =>
    refine congrArg Except.ok (SkelData.mk.injEq .. |>.mpr ⟨rfl, rfl, set_stored (f := storedBone) ?_ i x⟩)
    simp only [SkelData.ofSkel, List.map_map]
    apply List.map_congr_left
    rintro ⟨e, t⟩ _
    simp only [storedBone, Function.comp, SkelData.createBoneData, cutNul_toStringLossy, SkelData.BoneData.mk.injEq, true_and,
      and_true]
    split
    · rfl
    · rename_i hn
      have h2 := e.parent_index.toInt_lt
      have h3 : e.parent_index.toInt.toNat < 32768 := by omega
      rw [storedParent, Nat.mod_eq_of_lt (by omega), if_pos h3]

/-- C108 for the entries of models. -/
theorem C108_model (file : Bytes) (d : ModlData) (hr : ModlData.read file = .ok d) (i : Nat) (x : ModlData.ModlEntryData)
    (b : Bytes) (hw : ({ d with entries := d.entries.set i x } : ModlData).write = .ok b) :
    ModlData.read b = .ok { d with entries := d.entries.set i (storedEntry x) } := by
  obtain ⟨m, _, rfl⟩ := map_ok hr
  rw [C45_modl _ _ hw]
  cases m with
  | V17 m =>
    have h : cutNul ∘ toStringLossy = toStringLossy := funext cutNul_toStringLossy
    have he : ((ModlData.ofModl (.V17 m)).entries.set i x).map storedEntry = (ModlData.ofModl (.V17 m)).entries.set i (storedEntry x) := by
      apply set_stored
      simp only [ModlData.ofModl, List.map_map]
      apply List.map_congr_left
      intro e _
      simp [storedEntry, ModlData.ModlEntryData.ofEntry, cutNul_toStringLossy]
    refine congrArg Except.ok (ModlData.mk.injEq .. |>.mpr ⟨rfl, rfl, ?_, ?_, ?_, ?_, ?_, he⟩)
    all_goals simp only [mapModlText, ModlData.ofModl, cutNul_toStringLossy, List.map_map, Option.map_map, h]

/-- C108 for materials. -/
theorem C108_material (file : Bytes) (d : MatlData) (hr : MatlData.read file = .ok d) (i : Nat) (x : MatlData.MatlEntryData)
    (b : Bytes) (hw : ({ d with entries := d.entries.set i x } : MatlData).write = .ok b) :
    MatlData.read b = .ok { d with entries := d.entries.set i (mapEntryText cutNul x) } := by
  obtain ⟨m, _, rfl⟩ := map_ok hr
  obtain ⟨hv, h⟩ := C45_matl _ _ hw
  rw [h]
  cases m with
  | V15 m => exact absurd hv (by simp [MatlData.ofMatl, Matl.format])
  | V16 m =>
    refine congrArg Except.ok (MatlData.mk.injEq .. |>.mpr ⟨rfl, rfl, set_stored ?_ i x⟩)
    simp only [MatlData.ofMatl, List.map_map]
    apply List.map_congr_left
    intro e _
    simp only [Function.comp, MatlData.MatlEntryData.ofV16, mapEntryText, cutNul_toStringLossy,
      MatlData.MatlEntryData.mk.injEq, true_and, and_true]
    apply map_id_of_forall
    intro t ht
    simp only [MatlData.getV16, List.mem_filterMap] at ht
    obtain ⟨a, _, ha⟩ := ht
    rw [Option.map_eq_some_iff] at ha
    obtain ⟨s, hs, rfl⟩ := ha
    rw [Option.bind_eq_some_iff] at hs
    obtain ⟨p, _, hp⟩ := hs
    split at hp
    · cases hp
      simp [cutNul_toStringLossy]
    · cases hp

theorem hlpb_stored {file : Bytes} {d : HlpbData} (hr : HlpbData.read file = .ok d) : d.major_version = 1 ∧ d.minor_version = 1 ∧
    d.aim_constraints.map (mapAimText cutNul) = d.aim_constraints ∧ d.orient_constraints.map (mapOrientText cutNul) = d.orient_constraints := by
  obtain ⟨m, _, rfl⟩ := map_ok hr
  cases m with
  | V11 m =>
    refine ⟨rfl, rfl, ?_, ?_⟩
    · simp only [HlpbData.ofHlpb, List.map_map]
      apply List.map_congr_left
      intro e _
      simp [HlpbData.AimConstraintData.ofAim, mapAimText, cutNul_toStringLossy]
    · simp only [HlpbData.ofHlpb, List.map_map]
      apply List.map_congr_left
      intro e _
      simp [HlpbData.OrientConstraintData.ofOrient, mapOrientText, cutNul_toStringLossy]

/-- C108 for the constraints of helper bones. -/
theorem C108_aim (file : Bytes) (d : HlpbData) (hr : HlpbData.read file = .ok d) (i : Nat) (x : HlpbData.AimConstraintData)
    (b : Bytes) (hw : ({ d with aim_constraints := d.aim_constraints.set i x } : HlpbData).write = .ok b) :
    HlpbData.read b = .ok { d with aim_constraints := d.aim_constraints.set i (mapAimText cutNul x) } := by
  obtain ⟨h1, h2, h3, h4⟩ := hlpb_stored hr
  rw [C45_hlpb _ _ hw, set_stored h3, h4]
  simp only [h1, h2]

/-- C108 for the constraints of helper bones. -/
theorem C108_orient (file : Bytes) (d : HlpbData) (hr : HlpbData.read file = .ok d) (i : Nat) (x : HlpbData.OrientConstraintData)
    (b : Bytes) (hw : ({ d with orient_constraints := d.orient_constraints.set i x } : HlpbData).write = .ok b) :
    HlpbData.read b = .ok { d with orient_constraints := d.orient_constraints.set i (mapOrientText cutNul x) } := by
  obtain ⟨h1, h2, h3, h4⟩ := hlpb_stored hr
  rw [C45_hlpb _ _ hw, set_stored h4, h3]
  simp only [h1, h2]

/-- C108 for the groups of a MeshEx file. -/
theorem C108_meshex (sphereOf : List Mesh.BoundingSphere → Mesh.BoundingSphere) (file : Bytes) (d : MeshExData)
    (hr : MeshExData.read file = .ok d) (i : Nat) (x : MeshExData.MeshObjectGroupData) (b : Bytes)
    (hw : ({ d with mesh_object_groups := d.mesh_object_groups.set i x } : MeshExData).write sphereOf = .ok b)
    (hf : ((d.mesh_object_groups.set i x).map (·.entry_flags.length)).sum < 2 ^ 32) :
    MeshExData.read b = .ok { d with mesh_object_groups := d.mesh_object_groups.set i (storedGroup x) } := by
  obtain ⟨m, hm, rfl⟩ := map_ok hr
  have hc := meshEx_read_counts (liftRead_ok.mp hm)
  rw [C45_meshex sphereOf _ _ hw (by simpa [MeshExData.ofMeshEx, countOf] using hc.1) hf]
  refine congrArg Except.ok (MeshExData.mk.injEq .. |>.mpr (set_stored (f := storedGroup) ?_ i x))
  apply map_id_of_forall
  intro g hg
  simp only [MeshExData.ofMeshEx, List.mem_map] at hg
  obtain ⟨x, _, rfl⟩ := hg
  simp only [storedGroup, nameText_stable]

/-- C108 for the objects of a mesh file of any origin whose attributes have the formats that are used for saving (C82). -/
theorem C108_mesh (bounds : List (Vector F32 3) → Mesh.BoundingInfo) (file : Bytes) (m : Mesh) (hm : readAs Mesh file = .ok m)
    (hk : KeepsMesh m) (d : MeshData) (hr : MeshData.read Ieee.conv file = .ok d) (i : Nat) (x : MeshData.MeshObjectData)
    (h0 : '\x00' ∉ x.name.toList) (b : Bytes)
    (hw : ({ d with objects := d.objects.set i x } : MeshData).write Ieee.conv bounds = .ok b) (hl : b.length < 2 ^ 32) :
    MeshData.read Ieee.conv b = .ok { d with objects := d.objects.set i (storedObject Ieee.conv d.minor_version x) } := by
  have hs := (C57_layout Ieee.conv file m hm d).mp hr
  have hok : ∃ m', MeshData.toMesh Ieee.conv bounds { d with objects := d.objects.set i x } = .ok m' := by
    simp only [MeshData.write] at hw
    split at hw
    · cases hw
    · exact ⟨_, ‹_›⟩
  have hnames : ∀ o ∈ d.objects.set i x, cutNul o.name = o.name := by
    intro o ho
    rcases List.mem_or_eq_of_mem_set ho with h | rfl
    · exact names_kept hs o h
    · exact cutNul_of_not_mem h0
  rw [C45_mesh Ieee.conv bounds _ b hw hl]
  · exact congrArg (fun l => Except.ok { d with objects := l }) (set_stored (map_self_of (mesh_kept exact_conv hs hk)) i x)
  · refine (MeshData.toMesh_isOk.mp hok).1.imp_of_mem ?_
    intro a c ha hc hac
    rwa [hnames a ha, hnames c hc]

end Verif.Props
