import Verif.Props.DataFiles
/-!
# C56: the data types show what is in the file

For every file of any origin. The specification names, for each field of a data type, the field of the file format it
stands for. That saved files have the values in these fields follows with C45.
-/

namespace Verif.Props
open Verif

/-- Text of a string in a file: its bytes are the UTF-8 encoding. A string which is null or not UTF-8 is shown as
empty text. -/
def IsText (t : String) (s : Option CStr) : Prop :=
  (∃ c, s = some c ∧ textBytes t = c.bytes) ∨
  (t = "" ∧ ∀ c, s = some c → ¬ ∃ u, textBytes u = c.bytes)

theorem fromUtf8_none {b : Bytes} (h : fromUtf8 b = none) : ¬ ∃ u, textBytes u = b := by
  rintro ⟨u, rfl⟩
  rw [fromUtf8_textBytes] at h
  cases h

theorem isText_lossy (s : SsbhString) : IsText (toStringLossy s) s := by
  cases s with
  | none => exact .inr ⟨rfl, fun c h => by cases h⟩
  | some c =>
    cases h : fromUtf8 c.bytes with
    | some t =>
      refine .inl ⟨c, rfl, ?_⟩
      simp only [toStringLossy, ssbhToStr, CStr.toStr, h, Option.getD_some]
      exact textBytes_of_fromUtf8 h
    | none =>
      refine .inr ⟨by simp only [toStringLossy, ssbhToStr, CStr.toStr, h, Option.getD_none], ?_⟩
      rintro _ ⟨⟩
      exact fromUtf8_none h

theorem nameText_eq (p : Option CStr) : MeshExData.nameText p = toStringLossy p := by
  cases p <;> rfl

theorem textBytes_inj {s t : String} (h : textBytes s = textBytes t) : s = t := by
  have := fromUtf8_textBytes s
  rw [h, fromUtf8_textBytes] at this
  cases this
  rfl

/-- There is only one such text. -/
theorem IsText.unique {t t' : String} {s : Option CStr} (h : IsText t s) (h' : IsText t' s) : t = t' := by
  rcases h with ⟨c, hc, h⟩ | ⟨h0, h⟩ <;> rcases h' with ⟨c', hc', h'⟩ | ⟨h0', h'⟩
  · rw [hc] at hc'; cases hc'; exact textBytes_inj (h.trans h'.symm)
  · exact absurd ⟨t, h⟩ (h' c hc)
  · exact absurd ⟨t', h'⟩ (h c' hc')
  · rw [h0, h0']

example : IsText "Eye" (some ⟨[0x45, 0x79, 0x65], by decide⟩) := .inl ⟨_, rfl, by decide +kernel⟩
example : IsText "" (some ⟨[0xff], by decide⟩) :=
  .inr ⟨rfl, by rintro _ ⟨⟩; exact fromUtf8_none (by decide +kernel)⟩

theorem forall₂_map {f : α → β} {R : β → α → Prop} (h : ∀ a, R (f a) a) : ∀ l : List α, List.Forall₂ R (l.map f) l
  | [] => .nil
  | a :: l => .cons (h a) (forall₂_map h l)

/-! ## Modl -/

def ShowsModlEntry (e : ModlData.ModlEntryData) (r : Modl.ModlEntry) : Prop :=
  IsText e.mesh_object_name r.mesh_object_name ∧ e.mesh_object_subindex = r.mesh_object_subindex ∧
  IsText e.material_label r.material_label

def ShowsModl (d : ModlData) : Modl → Prop
  | .V17 m => (d.major_version = 1 ∧ d.minor_version = 7) ∧ IsText d.model_name m.model_name ∧
    IsText d.skeleton_file_name m.skeleton_file_name ∧
    List.Forall₂ IsText d.material_file_names m.material_file_names ∧
    (match m.animation_file_name with
      | none => d.animation_file_name = none
      | some s => ∃ t, d.animation_file_name = some t ∧ IsText t s) ∧
    IsText d.mesh_file_name m.mesh_file_name ∧ List.Forall₂ ShowsModlEntry d.entries m.entries

theorem showsModl (m : Modl) : ShowsModl (.ofModl m) m := by
  obtain ⟨m⟩ := m
  refine ⟨⟨rfl, rfl⟩, isText_lossy _, isText_lossy _, forall₂_map isText_lossy _, ?_, isText_lossy _,
    forall₂_map (fun e => ⟨isText_lossy _, rfl, isText_lossy _⟩) _⟩
  cases h : m.animation_file_name with
  | none => simp [ModlData.ofModl, h]
  | some s => exact ⟨_, by simp [ModlData.ofModl, h], isText_lossy _⟩

theorem C56_modl (bytes : Bytes) (m : Modl) (h : readAs Modl bytes = .ok m) :
    ∃ d, ModlData.read bytes = .ok d ∧ ShowsModl d m :=
  ⟨_, by rw [ModlData.read, h]; rfl, showsModl m⟩

theorem C56_modl_saved (d : ModlData) (bytes : Bytes) (h : d.write = .ok bytes) :
    ∃ m, readAs Modl bytes = .ok m ∧
      ShowsModl { mapModlText cutNul d with major_version := 1, minor_version := 7 } m := by
  have hm := C01_format_round_trip d.toModl bytes (liftWrite_ok.mp h)
  obtain ⟨d', hr, hs⟩ := C56_modl bytes _ hm
  rw [C45_modl d bytes h] at hr
  cases hr
  exact ⟨_, hm, hs⟩

example : ∃ bytes, sampleModl.write = .ok bytes := isOk_iff.mp (by decide +kernel)

/-! ## Hlpb -/

def ShowsAim (d : HlpbData.AimConstraintData) (a : Hlpb.AimConstraint) : Prop :=
  IsText d.name a.name ∧ IsText d.aim_bone_name1 a.aim_bone_name1 ∧ IsText d.aim_bone_name2 a.aim_bone_name2 ∧
  IsText d.aim_type1 a.aim_type1 ∧ IsText d.aim_type2 a.aim_type2 ∧
  IsText d.target_bone_name1 a.target_bone_name1 ∧ IsText d.target_bone_name2 a.target_bone_name2 ∧
  d.unk1 = a.unk1 ∧ d.unk2 = a.unk2 ∧ d.aim = a.aim ∧ d.up = a.up ∧ d.quat1 = a.quat1 ∧ d.quat2 = a.quat2

def ShowsOrient (d : HlpbData.OrientConstraintData) (o : Hlpb.OrientConstraint) : Prop :=
  IsText d.name o.name ∧ IsText d.parent_bone_name1 o.parent_bone_name1 ∧
  IsText d.parent_bone_name2 o.parent_bone_name2 ∧ IsText d.source_bone_name o.source_bone_name ∧
  IsText d.target_bone_name o.target_bone_name ∧ d.unk_type = o.unk_type ∧ d.constraint_axes = o.constraint_axes ∧
  d.quat1 = o.quat1 ∧ d.quat2 = o.quat2 ∧ d.range_min = o.range_min ∧ d.range_max = o.range_max

def ShowsHlpb (d : HlpbData) : Hlpb → Prop
  | .V11 h => (d.major_version = 1 ∧ d.minor_version = 1) ∧
    List.Forall₂ ShowsAim d.aim_constraints h.aim_constraints ∧
    List.Forall₂ ShowsOrient d.orient_constraints h.orient_constraints

theorem C56_hlpb (bytes : Bytes) (m : Hlpb) (h : readAs Hlpb bytes = .ok m) :
    ∃ d, HlpbData.read bytes = .ok d ∧ ShowsHlpb d m := by
  refine ⟨_, by rw [HlpbData.read, h]; rfl, ?_⟩
  obtain ⟨m⟩ := m
  exact ⟨⟨rfl, rfl⟩,
    forall₂_map (fun a => ⟨isText_lossy _, isText_lossy _, isText_lossy _, isText_lossy _, isText_lossy _,
      isText_lossy _, isText_lossy _, rfl, rfl, rfl, rfl, rfl, rfl⟩) _,
    forall₂_map (fun a => ⟨isText_lossy _, isText_lossy _, isText_lossy _, isText_lossy _, isText_lossy _, rfl, rfl,
      rfl, rfl, rfl, rfl⟩) _⟩

theorem C56_hlpb_saved (d : HlpbData) (bytes : Bytes) (h : d.write = .ok bytes) :
    ∃ m, readAs Hlpb bytes = .ok m ∧ ShowsHlpb ⟨1, 1, d.aim_constraints.map (mapAimText cutNul),
      d.orient_constraints.map (mapOrientText cutNul)⟩ m := by
  have hm := C01_format_round_trip d.toHlpb bytes (liftWrite_ok.mp h)
  obtain ⟨d', hr, hs⟩ := C56_hlpb bytes _ hm
  rw [C45_hlpb d bytes h] at hr
  cases hr
  exact ⟨_, hm, hs⟩

/-! ## Matl -/

/-- The parameters are those attributes, in this order, that have a value of the kind. -/
inductive Picks (shows' : β → P → Prop) : List (MatlData.ParamData β) → List (Matl.ParamId × Option P) → Prop
  | nil : Picks shows' [] []
  | take {id b p ps as} : shows' b p → Picks shows' ps as → Picks shows' (⟨id, b⟩ :: ps) ((id, some p) :: as)
  | skip {a ps as} : (∀ p, a.2 = some p → ¬ ∃ b, shows' b p) → Picks shows' ps as → Picks shows' ps (a :: as)

theorem picks {shows' : β → P → Prop} {f : P → Option β} (h1 : ∀ p b, f p = some b → shows' b p)
    (h2 : ∀ p, f p = none → ¬ ∃ b, shows' b p) : ∀ as : List (Matl.ParamId × Option P),
      Picks shows' (as.filterMap fun a => (a.2.bind f).map (MatlData.ParamData.mk a.1)) as
  | [] => .nil
  | (id, none) :: as => by
    rw [List.filterMap_cons]
    exact .skip (fun p hp => by cases hp) (picks h1 h2 as)
  | (id, some p) :: as => by
    rw [List.filterMap_cons]
    simp only [Option.bind_some]
    cases hf : f p with
    | none => exact .skip (fun p hp => by cases hp; exact h2 _ hf) (picks h1 h2 as)
    | some b => exact .take (h1 p b hf) (picks h1 h2 as)

/-- The maximum anisotropy counts only with anisotropic filtering. -/
def ShowsSampler (d : MatlData.SamplerData) (s : Matl.Sampler) : Prop :=
  d.wraps = s.wraps ∧ d.wrapt = s.wrapt ∧ d.wrapr = s.wrapr ∧ d.min_filter = s.min_filter ∧
  d.mag_filter = s.mag_filter ∧ d.border_color = s.border_color ∧ d.lod_bias = s.lod_bias ∧
  (s.texture_filtering_type = .AnisotropicFiltering → d.max_anisotropy = s.max_anisotropy) ∧
  (s.texture_filtering_type ≠ .AnisotropicFiltering → d.max_anisotropy = .One)

theorem showsSampler (s : Matl.Sampler) : ShowsSampler (.ofSampler s) s :=
  ⟨rfl, rfl, rfl, rfl, rfl, rfl, rfl, fun h => if_pos h, fun h => if_neg h⟩

/-- Each kind of value; `P` is the type of parameters of a version of the format, given by its constructors. -/
structure ShowsEntry (P : Type) (float : F32 → P) (boolean : UInt32 → P) (vector : Vector4 → P)
    (string : SsbhString → P) (sampler : Matl.Sampler → P) (uv : Matl.UvTransform → P)
    (ShowsBlend : MatlData.BlendStateData → P → Prop) (ShowsRasterizer : MatlData.RasterizerStateData → P → Prop)
    (e : MatlData.MatlEntryData) (label shader : SsbhString) (attributes : List (Matl.ParamId × Option P)) : Prop where
  material_label : IsText e.material_label label
  shader_label : IsText e.shader_label shader
  floats : Picks (fun v p => p = float v) e.floats attributes
  booleans : Picks (fun v p => ∃ n, p = boolean n ∧ (v = true ↔ n ≠ 0)) e.booleans attributes
  vectors : Picks (fun v p => p = vector v) e.vectors attributes
  textures : Picks (fun v p => ∃ s, p = string s ∧ IsText v s) e.textures attributes
  samplers : Picks (fun v p => ∃ s, p = sampler s ∧ ShowsSampler v s) e.samplers attributes
  uv_transforms : Picks (fun v p => p = uv v) e.uv_transforms attributes
  blend_states : Picks ShowsBlend e.blend_states attributes
  rasterizer_states : Picks ShowsRasterizer e.rasterizer_states attributes

def ShowsBlendV16 (d : MatlData.BlendStateData) (p : Matl.ParamV16) : Prop :=
  ∃ s, p = .BlendState s ∧ d.source_color = s.source_color ∧ d.color_operation = s.color_operation ∧
    d.destination_color = s.destination_color ∧ d.source_alpha = s.source_alpha ∧
    d.alpha_operation = s.alpha_operation ∧ d.destination_alpha = s.destination_alpha ∧
    (d.alpha_sample_to_coverage = true ↔ s.alpha_sample_to_coverage ≠ 0)

/-- Version 1.5 has no sample to coverage. -/
def ShowsBlendV15 (d : MatlData.BlendStateData) (p : Matl.ParamV15) : Prop :=
  ∃ s, p = .BlendState s ∧ d.source_color = s.source_color ∧ d.color_operation = s.color_operation ∧
    d.destination_color = s.destination_color ∧ d.source_alpha = s.source_alpha ∧
    d.alpha_operation = s.alpha_operation ∧ d.destination_alpha = s.destination_alpha ∧
    d.alpha_sample_to_coverage = false

def ShowsRasterizerV16 (d : MatlData.RasterizerStateData) (p : Matl.ParamV16) : Prop :=
  ∃ s, p = .RasterizerState s ∧ d.fill_mode = s.fill_mode ∧ d.cull_mode = s.cull_mode ∧ d.depth_bias = s.depth_bias

/-- Version 1.5 has only the cull mode. -/
def ShowsRasterizerV15 (d : MatlData.RasterizerStateData) (p : Matl.ParamV15) : Prop :=
  ∃ s, p = .RasterizerState s ∧ d.fill_mode = .Solid ∧ d.cull_mode = s.cull_mode ∧ d.depth_bias = 0

def ShowsEntryV16 (e : MatlData.MatlEntryData) (r : Matl.MatlEntryV16) : Prop :=
  ShowsEntry Matl.ParamV16 .Float .Boolean .Vector4 .String .Sampler .UvTransform ShowsBlendV16 ShowsRasterizerV16 e
    r.material_label r.shader_label (r.attributes.map fun a => (a.param_id, a.param))

def ShowsEntryV15 (e : MatlData.MatlEntryData) (r : Matl.MatlEntryV15) : Prop :=
  ShowsEntry Matl.ParamV15 .Float .Boolean .Vector4 .String .Sampler .UvTransform ShowsBlendV15 ShowsRasterizerV15 e
    r.material_label r.shader_label (r.attributes.map fun a => (a.param_id, a.param))

def ShowsMatl (d : MatlData) : Matl → Prop
  | .V15 m => (d.major_version = 1 ∧ d.minor_version = 5) ∧ List.Forall₂ ShowsEntryV15 d.entries m.entries
  | .V16 m => (d.major_version = 1 ∧ d.minor_version = 6) ∧ List.Forall₂ ShowsEntryV16 d.entries m.entries

theorem picksV16 {shows' : β → Matl.ParamV16 → Prop} {f : Matl.ParamV16 → Option β}
    (h1 : ∀ p b, f p = some b → shows' b p) (h2 : ∀ p, f p = none → ¬ ∃ b, shows' b p) (as : List Matl.AttributeV16) :
    Picks shows' (MatlData.getV16 f as) (as.map fun a => (a.param_id, a.param)) := by
  have := picks h1 h2 (as.map fun a => (a.param_id, a.param))
  rwa [List.filterMap_map] at this

theorem picksV15 {shows' : β → Matl.ParamV15 → Prop} {f : Matl.ParamV15 → Option β}
    (h1 : ∀ p b, f p = some b → shows' b p) (h2 : ∀ p, f p = none → ¬ ∃ b, shows' b p) (as : List Matl.AttributeV15) :
    Picks shows' (MatlData.getV15 f as) (as.map fun a => (a.param_id, a.param)) := by
  have := picks h1 h2 (as.map fun a => (a.param_id, a.param))
  rwa [List.filterMap_map] at this

theorem showsEntryV16 (r : Matl.MatlEntryV16) : ShowsEntryV16 (.ofV16 r) r where
  material_label := isText_lossy _
  shader_label := isText_lossy _
  floats := picksV16 (by intro p b h; cases p <;> simp_all) (by intro p h; cases p <;> simp_all) _
  booleans := picksV16 (by intro p b h; cases p <;> simp_all <;> rw [← h]; simp) (by intro p h; cases p <;> simp_all) _
  vectors := picksV16 (by intro p b h; cases p <;> simp_all) (by intro p h; cases p <;> simp_all) _
  textures := picksV16 (by intro p b h; cases p <;> simp_all; rw [← h]; exact isText_lossy _)
    (by intro p h; cases p <;> simp_all) _
  samplers := picksV16 (by intro p b h; cases p <;> simp_all; rw [← h]; exact showsSampler _)
    (by intro p h; cases p <;> simp_all) _
  uv_transforms := picksV16 (by intro p b h; cases p <;> simp_all) (by intro p h; cases p <;> simp_all) _
  blend_states := picksV16 (by intro p b h; cases p <;> simp_all; rw [← h]; exact ⟨_, rfl, by simp [MatlData.BlendStateData.ofV16]⟩)
    (by intro p h; cases p <;> simp_all [ShowsBlendV16]) _
  rasterizer_states := picksV16 (by intro p b h; cases p <;> simp_all; rw [← h]; exact ⟨_, rfl, rfl, rfl, rfl⟩)
    (by intro p h; cases p <;> simp_all [ShowsRasterizerV16]) _

theorem showsEntryV15 (r : Matl.MatlEntryV15) : ShowsEntryV15 (.ofV15 r) r where
  material_label := isText_lossy _
  shader_label := isText_lossy _
  floats := picksV15 (by intro p b h; cases p <;> simp_all) (by intro p h; cases p <;> simp_all) _
  booleans := picksV15 (by intro p b h; cases p <;> simp_all <;> rw [← h]; simp) (by intro p h; cases p <;> simp_all) _
  vectors := picksV15 (by intro p b h; cases p <;> simp_all) (by intro p h; cases p <;> simp_all) _
  textures := picksV15 (by intro p b h; cases p <;> simp_all; rw [← h]; exact isText_lossy _)
    (by intro p h; cases p <;> simp_all) _
  samplers := picksV15 (by intro p b h; cases p <;> simp_all; rw [← h]; exact showsSampler _)
    (by intro p h; cases p <;> simp_all) _
  uv_transforms := picksV15 (by intro p b h; cases p <;> simp_all) (by intro p h; cases p <;> simp_all) _
  blend_states := picksV15 (by intro p b h; cases p <;> simp_all; rw [← h]; exact ⟨_, rfl, by simp [MatlData.BlendStateData.ofV15]⟩)
    (by intro p h; cases p <;> simp_all [ShowsBlendV15]) _
  rasterizer_states := picksV15 (by intro p b h; cases p <;> simp_all; rw [← h]; exact ⟨_, rfl, rfl, rfl, rfl⟩)
    (by intro p h; cases p <;> simp_all [ShowsRasterizerV15]) _

theorem C56_matl (bytes : Bytes) (m : Matl) (h : readAs Matl bytes = .ok m) :
    ∃ d, MatlData.read bytes = .ok d ∧ ShowsMatl d m := by
  refine ⟨_, by rw [MatlData.read, h]; rfl, ?_⟩
  cases m with
  | V15 m => exact ⟨⟨rfl, rfl⟩, forall₂_map showsEntryV15 _⟩
  | V16 m => exact ⟨⟨rfl, rfl⟩, forall₂_map showsEntryV16 _⟩

theorem C56_matl_saved (d : MatlData) (bytes : Bytes) (h : d.write = .ok bytes) :
    ∃ m, readAs Matl bytes = .ok m ∧ ShowsMatl ⟨1, 6, d.entries.map (mapEntryText cutNul)⟩ m := by
  have hr' := (C45_matl d bytes h).2
  obtain ⟨m, hm, _⟩ := map_ok hr'
  rw [liftRead_ok] at hm
  obtain ⟨d', hr, hs⟩ := C56_matl bytes m hm
  rw [hr'] at hr
  cases hr
  exact ⟨m, hm, hs⟩

/-- A file of version 1.5 with a blend state of different factors, and the data shown for it. -/
def oldMatl : Matl := .V15 ⟨[{
  material_label := some ⟨[0x6d], by decide⟩
  attributes := [⟨param 280, some (.BlendState ⟨.One, .Add, .Zero, .Zero, .Add, .One, 0, 0, 0, 0⟩)⟩,
    ⟨param 233, some (.Boolean 2)⟩]
  shader_label := none }]⟩

example : ∃ bytes d, readAs Matl bytes = .ok oldMatl ∧ MatlData.read bytes = .ok d ∧ ShowsMatl d oldMatl ∧
    d.entries.map (·.blend_states) = [[⟨param 280, ⟨.One, .Add, .Zero, .Zero, .Add, .One, false⟩⟩]] := by
  obtain ⟨bytes, h⟩ : ∃ b, liftWrite (writeAs oldMatl) = .ok b := isOk_iff.mp (by decide +kernel)
  have hr := C01_format_round_trip oldMatl bytes (liftWrite_ok.mp h)
  obtain ⟨d, hd, hs⟩ := C56_matl bytes _ hr
  refine ⟨bytes, d, hr, hd, hs, ?_⟩
  rw [MatlData.read, hr] at hd
  cases hd
  decide +kernel

/-! ## Skel -/

/-- The bones and their transforms belong together by position. A negative parent index stands for no parent. -/
def ShowsSkel (d : SkelData) : Skel → Prop
  | .V10 s => (d.major_version = 1 ∧ d.minor_version = 0) ∧
    d.bones.length = min s.bone_entries.length s.transforms.length ∧
    ∀ (i : Nat) b e t, d.bones[i]? = some b → s.bone_entries[i]? = some e → s.transforms[i]? = some t →
      IsText b.name e.name ∧ b.transform = t ∧ b.billboard_type = e.flags.billboard_type ∧
      (e.parent_index.toInt < 0 → b.parent_index = none) ∧
      (0 ≤ e.parent_index.toInt → ∃ p : Nat, b.parent_index = some p ∧ e.parent_index.toInt = p)

theorem C56_skel (bytes : Bytes) (m : Skel) (h : readAs Skel bytes = .ok m) :
    ∃ d, SkelData.read bytes = .ok d ∧ ShowsSkel d m := by
  refine ⟨_, by rw [SkelData.read, h]; rfl, ?_⟩
  obtain ⟨m⟩ := m
  refine ⟨⟨rfl, rfl⟩, by simp [SkelData.ofSkel], ?_⟩
  intro i b e t hb he ht
  have hz : (m.bone_entries.zip m.transforms)[i]? = some (e, t) := List.getElem?_zip_eq_some.mpr ⟨he, ht⟩
  simp only [SkelData.ofSkel, List.getElem?_map, hz, Option.map_some, Option.some.injEq] at hb
  subst hb
  refine ⟨isText_lossy _, rfl, rfl, fun h => if_pos h, fun h => ⟨e.parent_index.toInt.toNat, if_neg (by omega), ?_⟩⟩
  omega

theorem C56_skel_saved (O : MatOps Matrix4x4) (d : SkelData) (bytes : Bytes) (h : d.write O = .ok bytes) :
    ∃ m, readAs Skel bytes = .ok m ∧ ShowsSkel ⟨1, 0, d.bones.map fun b =>
      { b with name := cutNul b.name, parent_index := storedParent b.parent_index }⟩ m := by
  have hr' := C45_skel O d bytes h
  obtain ⟨m, hm, _⟩ := map_ok hr'
  rw [liftRead_ok] at hm
  obtain ⟨d', hr, hs⟩ := C56_skel bytes m hm
  rw [hr'] at hr
  cases hr
  exact ⟨m, hm, hs⟩

/-! ## MeshEx -/

/-- The flags of a group are the flags at the positions of the entries with its index. -/
def ShowsMeshEx (d : MeshExData) (m : MeshEx) : Prop :=
  d.mesh_object_groups.length = (m.mesh_object_groups.getD []).length ∧
  ∀ (i : Nat) g r, d.mesh_object_groups[i]? = some g → (m.mesh_object_groups.getD [])[i]? = some r →
    g.bounding_sphere = r.bounding_sphere ∧ IsText g.mesh_object_full_name r.mesh_object_full_name ∧
    IsText g.mesh_object_name r.mesh_object_name ∧
    ∃ places : List Nat, places.Pairwise (· < ·) ∧
      (∀ k, k ∈ places ↔ ∃ e f, (m.entries.getD [])[k]? = some e ∧ (m.entry_flags.getD [])[k]? = some f ∧
        e.mesh_object_group_index.toNat = i) ∧
      List.Forall₂ (fun (f : MeshExData.EntryFlags) k => ∃ raw, (m.entry_flags.getD [])[k]? = some raw ∧
        (f.draw_model = true ↔ raw.toNat % 2 = 1) ∧ (f.cast_shadow = true ↔ raw.toNat / 2 % 2 = 1))
        g.entry_flags places

theorem mem_positions {p : α → Bool} {l : List α} {k : Nat} :
    k ∈ MeshExData.positions p l ↔ ∃ x, l[k]? = some x ∧ p x = true := by
  unfold MeshExData.positions
  simp only [List.mem_map, List.mem_filter, Prod.exists, exists_and_right, exists_eq_right]
  constructor
  · rintro ⟨x, h1, h2⟩
    exact ⟨x, List.mem_zipIdx_iff_getElem?.mp h1, h2⟩
  · rintro ⟨x, h1, h2⟩
    exact ⟨x, List.mem_zipIdx_iff_getElem?.mpr h1, h2⟩

theorem positions_sorted (p : α → Bool) (l : List α) : (MeshExData.positions p l).Pairwise (· < ·) := by
  unfold MeshExData.positions
  rw [List.pairwise_map]
  apply List.Pairwise.filter
  have : (l.zipIdx.map (·.2)).Pairwise (· < ·) := by
    rw [List.zipIdx_map_snd]
    exact List.pairwise_lt_range' ..
  exact List.pairwise_map.mp this

theorem forall₂_filterMap {f : α → Option β} {R : β → α → Prop} (h : ∀ a b, f a = some b → R b a) :
    ∀ l : List α, List.Forall₂ R (l.filterMap f) (l.filter fun a => (f a).isSome)
  | [] => .nil
  | a :: l => by
    rw [List.filterMap_cons, List.filter_cons]
    cases hf : f a with
    | none => simpa using forall₂_filterMap h l
    | some b => simpa using List.Forall₂.cons (h a b hf) (forall₂_filterMap h l)

theorem showsMeshEx (m : MeshEx) : ShowsMeshEx (.ofMeshEx m) m := by
  refine ⟨by simp [MeshExData.ofMeshEx], ?_⟩
  intro i g r hg hr
  simp only [MeshExData.ofMeshEx, List.getElem?_map, List.getElem?_zipIdx, hr, Option.map_some, Option.some.injEq,
    Nat.zero_add] at hg
  subst hg
  refine ⟨rfl, nameText_eq r.mesh_object_full_name ▸ isText_lossy r.mesh_object_full_name,
    nameText_eq r.mesh_object_name ▸ isText_lossy r.mesh_object_name, _,
    (positions_sorted _ _).filter _, ?_, forall₂_filterMap ?_ _⟩
  · intro k
    rw [List.mem_filter, mem_positions]
    cases hf : m.entry_flags with
    | none => simp
    | some fs =>
      cases hk : fs[k]? with
      | none => simp [hk]
      | some f => simp [hk]
  · intro k f hk
    cases hf : m.entry_flags with
    | none => simp [hf] at hk
    | some fs =>
      cases hk' : fs[k]? with
      | none => simp [hf, hk'] at hk
      | some raw =>
        simp only [hf, hk', Option.bind_eq_bind, Option.bind_some, Option.pure_def, Option.some.injEq] at hk
        subst hk
        refine ⟨raw, by simpa using hk', ?_, ?_⟩
        · simp [MeshExData.EntryFlags.ofRaw, Nat.testBit_eq_decide_div_mod_eq]
        · simp [MeshExData.EntryFlags.ofRaw, Nat.testBit_eq_decide_div_mod_eq]

theorem C56_meshex (bytes : Bytes) (m : MeshEx) (h : MeshEx.read bytes = .ok m) :
    ∃ d, MeshExData.read bytes = .ok d ∧ ShowsMeshEx d m :=
  ⟨_, by rw [MeshExData.read, h]; rfl, showsMeshEx m⟩

end Verif.Props
