import Verif.Data.HlpbData
import Verif.Data.ModlData
import Verif.Data.MeshExData
import Verif.Data.SkelData
import Verif.Data.MatlData
import Verif.Data.TextLaws
/-!
# Conversions between data types and file types

C31, C32, C38: converting to the file type and back. Text may be any text; what comes back is the text up to its
first NUL character, so text without NUL comes back unchanged.
-/

namespace Verif

/-- Text without a NUL character. -/
def NulFree (s : String) : Prop := '\x00' ∉ s.toList

instance (s : String) : Decidable (NulFree s) := inferInstanceAs (Decidable (_ ∉ _))

theorem NulFree.cut {s : String} (h : NulFree s) : cutNul s = s := cutNul_of_not_mem h

theorem map_id_of_forall {f : α → α} {l : List α} (h : ∀ x ∈ l, f x = x) : l.map f = l := by
  induction l with
  | nil => rfl
  | cons x l ih => rw [List.map_cons, h x List.mem_cons_self, ih fun y hy => h y (List.mem_cons_of_mem _ hy)]

namespace Props
open Verif

/-! ## C31: HlpbData -/

/-- All texts of an aim constraint. -/
def mapAimText (f : String → String) (a : HlpbData.AimConstraintData) : HlpbData.AimConstraintData :=
  { a with
    name := f a.name
    aim_bone_name1 := f a.aim_bone_name1
    aim_bone_name2 := f a.aim_bone_name2
    aim_type1 := f a.aim_type1
    aim_type2 := f a.aim_type2
    target_bone_name1 := f a.target_bone_name1
    target_bone_name2 := f a.target_bone_name2 }

/-- All texts of an orient constraint. -/
def mapOrientText (f : String → String) (o : HlpbData.OrientConstraintData) : HlpbData.OrientConstraintData :=
  { o with
    name := f o.name
    parent_bone_name1 := f o.parent_bone_name1
    parent_bone_name2 := f o.parent_bone_name2
    source_bone_name := f o.source_bone_name
    target_bone_name := f o.target_bone_name }

/-- Converting to a file and back changes nothing but the version, which becomes 1.1, and cuts texts at NUL. -/
theorem C31_round_trip (d : HlpbData) : HlpbData.ofHlpb d.toHlpb =
    ⟨1, 1, d.aim_constraints.map (mapAimText cutNul), d.orient_constraints.map (mapOrientText cutNul)⟩ := by
  simp only [HlpbData.ofHlpb, HlpbData.toHlpb, List.map_map, HlpbData.mk.injEq, true_and]
  constructor
  · apply List.map_congr_left
    intro a _
    simp [HlpbData.AimConstraintData.ofAim, HlpbData.AimConstraintData.toAim, toStringLossy_ssbhText, mapAimText]
  · apply List.map_congr_left
    intro a _
    simp [HlpbData.OrientConstraintData.ofOrient, HlpbData.OrientConstraintData.toOrient, toStringLossy_ssbhText,
      mapOrientText]

def aimTexts (a : HlpbData.AimConstraintData) : List String :=
  [a.name, a.aim_bone_name1, a.aim_bone_name2, a.aim_type1, a.aim_type2, a.target_bone_name1, a.target_bone_name2]

def orientTexts (o : HlpbData.OrientConstraintData) : List String :=
  [o.name, o.parent_bone_name1, o.parent_bone_name2, o.source_bone_name, o.target_bone_name]

/-- Data of version 1.1 without NUL comes back as it was. -/
theorem C31_identity (d : HlpbData) (hv : d.major_version = 1 ∧ d.minor_version = 1)
    (ha : ∀ a ∈ d.aim_constraints, ∀ s ∈ aimTexts a, NulFree s)
    (ho : ∀ o ∈ d.orient_constraints, ∀ s ∈ orientTexts o, NulFree s) : HlpbData.ofHlpb d.toHlpb = d := by
  rw [C31_round_trip, ← hv.1]
  rw [map_id_of_forall, map_id_of_forall]
  · cases d with | mk a b c d => cases hv.1; cases hv.2; rfl
  · intro o h
    have h := ho o h
    simp only [orientTexts, List.forall_mem_cons] at h
    simp only [mapOrientText, h.1.cut, h.2.1.cut, h.2.2.1.cut, h.2.2.2.1.cut, h.2.2.2.2.1.cut]
  · intro a h
    have h := ha a h
    simp only [aimTexts, List.forall_mem_cons] at h
    simp only [mapAimText, h.1.cut, h.2.1.cut, h.2.2.1.cut, h.2.2.2.1.cut, h.2.2.2.2.1.cut, h.2.2.2.2.2.1.cut,
      h.2.2.2.2.2.2.1.cut]

/-- The constraints which the index list and the type list of a file refer to, in order. -/
def constraintRefs : Hlpb → List (Hlpb.ConstraintType × Nat)
  | .V11 h => h.constraint_types.zip (h.constraint_indices.map UInt32.toNat)

theorem indexRange_toNat {n : Nat} (h : n < 2 ^ 32) : (HlpbData.indexRange n).map UInt32.toNat = List.range n := by
  have hn : (UInt32.ofNat n).toNat = n := by simpa using Nat.mod_eq_of_lt h
  unfold HlpbData.indexRange
  rw [hn, List.map_map]
  apply map_id_of_forall
  intro x hx
  have : x < 2 ^ 32 := Nat.lt_trans (List.mem_range.mp hx) h
  simpa using Nat.mod_eq_of_lt this

theorem replicate_zip (a : α) : ∀ l : List β, (List.replicate l.length a).zip l = l.map (a, ·)
  | [] => rfl
  | x :: l => by simp [List.replicate_succ, replicate_zip a l]

/-- The lists of types and indices have the same length and refer to every aim constraint in order, then to every
orient constraint in order. -/
theorem C31_references (d : HlpbData) (ha : d.aim_constraints.length < 2 ^ 32)
    (ho : d.orient_constraints.length < 2 ^ 32) :
    constraintRefs d.toHlpb = (List.range d.aim_constraints.length).map (.Aim, ·) ++
      (List.range d.orient_constraints.length).map (.Orient, ·) ∧
    ∀ h, d.toHlpb = .V11 h → h.constraint_types.length = h.constraint_indices.length := by
  have hl : ∀ n, n < 2 ^ 32 → (HlpbData.indexRange n).length = n := by
    intro n hn
    have := congrArg List.length (indexRange_toNat hn)
    simpa using this
  constructor
  · simp only [constraintRefs, HlpbData.toHlpb, List.map_append, indexRange_toNat ha, indexRange_toNat ho]
    rw [List.zip_append (by simp)]
    have h := fun (n : Nat) (t : Hlpb.ConstraintType) => replicate_zip t (List.range n)
    simp only [List.length_range] at h
    rw [h, h]
  · intro h he
    cases he
    simp [hl _ ha, hl _ ho]

theorem aim_ne_orient : Hlpb.ConstraintType.Aim ≠ Hlpb.ConstraintType.Orient := by decide

/-- Each constraint is referred to exactly once. -/
theorem C31_each_once (d : HlpbData) (ha : d.aim_constraints.length < 2 ^ 32)
    (ho : d.orient_constraints.length < 2 ^ 32) :
    (constraintRefs d.toHlpb).Nodup ∧
    ∀ i, ((.Aim, i) ∈ constraintRefs d.toHlpb ↔ i < d.aim_constraints.length) ∧
      ((.Orient, i) ∈ constraintRefs d.toHlpb ↔ i < d.orient_constraints.length) := by
  rw [(C31_references d ha ho).1]
  constructor
  · rw [List.nodup_append]
    refine ⟨?_, ?_, ?_⟩
    · exact List.Pairwise.map _ (fun a b h he => h (by simpa using he)) List.nodup_range
    · exact List.Pairwise.map _ (fun a b h he => h (by simpa using he)) List.nodup_range
    · intro a ha b hb
      simp only [List.mem_map] at ha hb
      obtain ⟨_, _, rfl⟩ := ha
      obtain ⟨_, _, rfl⟩ := hb
      simp [aim_ne_orient]
  · intro i
    simp [aim_ne_orient, Ne.symm aim_ne_orient]

/-- An aim constraint and two orient constraints. -/
def sampleHlpb : HlpbData :=
  let v : Vector3 := ⟨1, 2, 3⟩
  let q : Vector4 := ⟨1, 2, 3, 4⟩
  ⟨1, 1, [⟨"aim", "a", "b", "DEFAULT", "", "c", "d", 0, 1, v, v, q, q⟩],
    [⟨"or1", "a", "b", "c", "d", 1, v, q, q, v, v⟩, ⟨"or2", "e", "f", "g", "h", 2, v, q, q, v, v⟩]⟩

example : HlpbData.ofHlpb sampleHlpb.toHlpb = sampleHlpb :=
  C31_identity _ (by decide) (by decide +kernel) (by decide +kernel)

example : constraintRefs sampleHlpb.toHlpb = [(.Aim, 0), (.Orient, 0), (.Orient, 1)] := by decide

/-! ## C32: ModlData -/

def mapModlText (f : String → String) (m : ModlData) : ModlData :=
  { m with
    model_name := f m.model_name
    skeleton_file_name := f m.skeleton_file_name
    material_file_names := m.material_file_names.map f
    animation_file_name := m.animation_file_name.map f
    mesh_file_name := f m.mesh_file_name
    entries := m.entries.map fun e =>
      { e with mesh_object_name := f e.mesh_object_name, material_label := f e.material_label } }

theorem C32_round_trip (m : ModlData) :
    ModlData.ofModl m.toModl = { mapModlText cutNul m with major_version := 1, minor_version := 7 } := by
  have h : toStringLossy ∘ ssbhText = cutNul := funext toStringLossy_ssbhText
  simp only [ModlData.ofModl, ModlData.toModl, mapModlText, Modl.format, toStringLossy_ssbhText, List.map_map,
    Option.map_map, h, ModlData.mk.injEq, true_and]
  apply List.map_congr_left
  intro e _
  simp [ModlData.ModlEntryData.ofEntry, ModlData.ModlEntryData.toEntry, toStringLossy_ssbhText]

def modlTexts (m : ModlData) : List String :=
  [m.model_name, m.skeleton_file_name, m.mesh_file_name] ++ m.material_file_names ++ m.animation_file_name.toList ++
    m.entries.flatMap fun e => [e.mesh_object_name, e.material_label]

theorem C32_identity (m : ModlData) (hv : m.major_version = 1 ∧ m.minor_version = 7)
    (h : ∀ s ∈ modlTexts m, NulFree s) : ModlData.ofModl m.toModl = m := by
  have hc : ∀ s ∈ modlTexts m, cutNul s = s := fun s hs => cutNul_of_not_mem (h s hs)
  simp only [modlTexts, List.mem_append, List.mem_cons, List.not_mem_nil, or_false, Option.mem_toList,
    List.mem_flatMap] at hc
  rw [C32_round_trip, mapModlText]
  rw [map_id_of_forall fun s hs => hc s (by simp [hs]), hc m.model_name (by simp), hc m.skeleton_file_name (by simp),
    hc m.mesh_file_name (by simp), map_id_of_forall]
  · have : m.animation_file_name.map cutNul = m.animation_file_name := by
      cases hm : m.animation_file_name with
      | none => rfl
      | some s => rw [Option.map_some, hc s (by simp [hm])]
    rw [this, ← hv.1, ← hv.2]
  · intro e he
    rw [hc e.mesh_object_name (.inr ⟨e, he, by simp⟩), hc e.material_label (.inr ⟨e, he, by simp⟩)]

def sampleModl : ModlData :=
  ⟨1, 7, "model", "model.nusktb", ["a.numatb", "b.numatb"], some "model.nuanmb", "model.numshb",
    [⟨"mesh", 0, "label"⟩, ⟨"mesh", 1, "label2"⟩]⟩

example : ModlData.ofModl sampleModl.toModl = sampleModl := C32_identity _ (by decide) (by decide +kernel)

/-- The hypothesis on NUL is needed. -/
theorem C32_nul_cut : (ModlData.ofModl { sampleModl with model_name := "a\x00b" }.toModl).model_name = "a" := by
  rw [C32_round_trip]
  decide +kernel

/-! ## C38: MatlData -/

def mapEntryText (f : String → String) (e : MatlData.MatlEntryData) : MatlData.MatlEntryData :=
  { e with
    material_label := f e.material_label
    shader_label := f e.shader_label
    textures := e.textures.map fun t => { t with data := f t.data } }

theorem getV16_append (f : Matl.ParamV16 → Option α) (l₁ l₂ : List Matl.AttributeV16) :
    MatlData.getV16 f (l₁ ++ l₂) = MatlData.getV16 f l₁ ++ MatlData.getV16 f l₂ := List.filterMap_append

theorem getV16_none (f : Matl.ParamV16 → Option α) (g : β → Matl.ParamV16) (h : ∀ b, f (g b) = none)
    (l : List (MatlData.ParamData β)) : MatlData.getV16 f (l.map (MatlData.attrV16 g)) = [] := by
  induction l with
  | nil => rfl
  | cons x l ih =>
    simp only [MatlData.getV16, MatlData.attrV16, List.map_cons, List.filterMap_cons, Option.bind_some, h,
      Option.map_none] at ih ⊢
    exact ih

theorem getV16_some (f : Matl.ParamV16 → Option α) (g : β → Matl.ParamV16) (k : β → α)
    (h : ∀ b, f (g b) = some (k b)) (l : List (MatlData.ParamData β)) :
    MatlData.getV16 f (l.map (MatlData.attrV16 g)) = l.map fun p => ⟨p.param_id, k p.data⟩ := by
  induction l with
  | nil => rfl
  | cons x l ih =>
    simp only [MatlData.getV16, MatlData.attrV16, List.map_cons, List.filterMap_cons, Option.bind_some, h,
      Option.map_some] at ih ⊢
    rw [ih]

theorem sampler_round_trip (s : MatlData.SamplerData) : MatlData.SamplerData.ofSampler s.toSampler = s := by
  have h : Matl.FilteringType.Default ≠ .AnisotropicFiltering := by decide
  by_cases hm : s.max_anisotropy = .One
  · simp only [MatlData.SamplerData.ofSampler, MatlData.SamplerData.toSampler, if_pos hm, if_neg h]
    rw [← hm]
  · simp only [MatlData.SamplerData.ofSampler, MatlData.SamplerData.toSampler, if_neg hm, if_true]

theorem blend_round_trip (s : MatlData.BlendStateData) : MatlData.BlendStateData.ofV16 s.toV16 = s := by
  cases s with
  | mk a b c d e f g => cases g <;> rfl

theorem entry_round_trip (e : MatlData.MatlEntryData) :
    MatlData.MatlEntryData.ofV16 e.toV16 = mapEntryText cutNul e := by
  have hid : ∀ {α : Type} (l : List (MatlData.ParamData α)) (k : α → α), (∀ x, k x = x) →
      (l.map fun p => (⟨p.param_id, k p.data⟩ : MatlData.ParamData α)) = l := by
    intro α l k hk
    apply map_id_of_forall
    intro x _
    rw [hk]
  simp only [MatlData.MatlEntryData.ofV16, MatlData.MatlEntryData.toV16, mapEntryText, toStringLossy_ssbhText,
    getV16_append, MatlData.MatlEntryData.mk.injEq, true_and]
  refine ⟨?_, ?_, ?_, ?_, ?_, ?_, ?_, ?_⟩
  · rw [getV16_some (α := MatlData.BlendStateData) _ (fun s : MatlData.BlendStateData => .BlendState s.toV16)
      (fun x => x) (fun s => by simp only [blend_round_trip]), hid _ (fun x => x) (fun _ => rfl)]
    simp [getV16_none]
  · rw [getV16_some _ .Float (fun x => x) (fun _ => rfl), hid _ (fun x => x) (fun _ => rfl)]
    simp [getV16_none]
  · rw [getV16_some _ (fun b : Bool => .Boolean (if b then 1 else 0)) (fun x => x) (fun b => by cases b <;> rfl),
      hid _ (fun x => x) (fun _ => rfl)]
    simp [getV16_none]
  · rw [getV16_some _ .Vector4 (fun x => x) (fun _ => rfl), hid _ (fun x => x) (fun _ => rfl)]
    simp [getV16_none]
  · rw [getV16_some _ (fun s : MatlData.RasterizerStateData => .RasterizerState s.toV16) (fun x => x) (fun _ => rfl),
      hid _ (fun x => x) (fun _ => rfl)]
    simp [getV16_none]
  · rw [getV16_some (α := MatlData.SamplerData) _ (fun s : MatlData.SamplerData => .Sampler s.toSampler)
      (fun x => x) (fun s => by simp only [sampler_round_trip]), hid _ (fun x => x) (fun _ => rfl)]
    simp [getV16_none]
  · rw [getV16_some _ (fun s : String => .String (ssbhText s)) cutNul (fun s => by simp [toStringLossy_ssbhText])]
    simp [getV16_none]
  · rw [getV16_some _ .UvTransform (fun x => x) (fun _ => rfl), hid _ (fun x => x) (fun _ => rfl)]
    simp [getV16_none]

/-- Data of version 1.6 comes back with all parameters in order; texts are cut at NUL. -/
theorem C38_round_trip (m : MatlData) (hv : m.major_version = 1 ∧ m.minor_version = 6) :
    ∃ f, m.toMatl = .ok f ∧ MatlData.ofMatl f = ⟨1, 6, m.entries.map (mapEntryText cutNul)⟩ := by
  refine ⟨.V16 ⟨m.entries.map (·.toV16)⟩, by rw [MatlData.toMatl, if_pos hv], ?_⟩
  simp only [MatlData.ofMatl, Matl.format, List.map_map, MatlData.mk.injEq, true_and]
  exact List.map_congr_left fun e _ => entry_round_trip e

def entryTexts (e : MatlData.MatlEntryData) : List String :=
  e.material_label :: e.shader_label :: e.textures.map (·.data)

theorem C38_identity (m : MatlData) (hv : m.major_version = 1 ∧ m.minor_version = 6)
    (h : ∀ e ∈ m.entries, ∀ s ∈ entryTexts e, NulFree s) :
    ∃ f, m.toMatl = .ok f ∧ MatlData.ofMatl f = m := by
  obtain ⟨f, hf, hr⟩ := C38_round_trip m hv
  refine ⟨f, hf, ?_⟩
  rw [hr, map_id_of_forall, ← hv.1, ← hv.2]
  intro e he
  have hc : ∀ s ∈ entryTexts e, cutNul s = s := fun s hs => cutNul_of_not_mem (h e he s hs)
  simp only [entryTexts, List.mem_cons, List.mem_map] at hc
  rw [mapEntryText, hc _ (.inl rfl), hc e.shader_label (.inr (.inl rfl)), map_id_of_forall]
  intro t ht
  rw [hc t.data (.inr (.inr ⟨t, ht, rfl⟩))]

/-- Every other version is rejected, with that version in the error. -/
theorem C38_other_versions (m : MatlData) (hv : ¬(m.major_version = 1 ∧ m.minor_version = 6)) :
    m.toMatl = .error (.unsupportedVersion m.major_version m.minor_version) := by
  rw [MatlData.toMatl, if_neg hv]

def param (n : Fin 366) : Matl.ParamId := ⟨n, List.mem_range.mpr n.isLt⟩

/-- One material with parameters of every kind. -/
def sampleMatl : MatlData := ⟨1, 6, [{
  material_label := "m", shader_label := "SFX_PBS"
  blend_states := [⟨param 280, ⟨.One, .Add, .Zero, .One, .Add, .Zero, true⟩⟩]
  floats := [⟨param 200, 7⟩]
  booleans := [⟨param 233, true⟩, ⟨param 235, false⟩]
  vectors := [⟨param 152, ⟨1, 2, 3, 4⟩⟩]
  rasterizer_states := [⟨param 291, ⟨.Line, .Back, 5⟩⟩]
  samplers := [⟨param 108, ⟨.Repeat, .Repeat, .Repeat, .Nearest, .Nearest, ⟨0, 0, 0, 0⟩, 0, .Four⟩⟩]
  textures := [⟨param 92, "/common/white"⟩]
  uv_transforms := [⟨param 252, ⟨1, 2, 3, 4, 5⟩⟩] }]⟩

example : ∃ f, sampleMatl.toMatl = .ok f ∧ MatlData.ofMatl f = sampleMatl :=
  C38_identity _ (by decide) (by decide +kernel)

example : { sampleMatl with minor_version := 5 }.toMatl = .error (.unsupportedVersion 1 5) :=
  C38_other_versions _ (by decide)

end Props
end Verif
