import Verif.Props.Shown
import Verif.Json.DataTool

/-!
C78: the version of saved data, and materials of version 1.5.

The documentation lists the supported versions: 1.0 for SkelData, 1.1 for HlpbData, 1.7 for ModlData, 1.5 and 1.6 for
MatlData, /repo/ssbh_data/src/skel_data.rs:30, hlpb_data.rs:10, modl_data.rs:28, matl_data.rs:78.
-/

namespace Verif.Props
open Verif

/-- The version number in the header of a file: two bytes and two bytes, little endian. -/
def headerVersion (b : Bytes) : UInt16 × UInt16 :=
  (UInt16.ofNat (fromLe ((b.drop 20).take 2)), UInt16.ofNat (fromLe ((b.drop 22).take 2)))

/-- The version fields of the data. MeshExData and AdjData have none. -/
def dataVersion : DataFile → Option (UInt16 × UInt16)
  | .mesh d => some (d.major_version, d.minor_version)
  | .skel d => some (d.major_version, d.minor_version)
  | .anim d => some (d.major_version, d.minor_version)
  | .modl d => some (d.major_version, d.minor_version)
  | .matl d => some (d.major_version, d.minor_version)
  | .hlpb d => some (d.major_version, d.minor_version)
  | .meshEx _ => none
  | .adj _ => none

/-- The versions that can be saved. -/
def savable : DataFile → List (UInt16 × UInt16)
  | .mesh _ => [(1, 8), (1, 9), (1, 10)]
  | .skel _ => [(1, 0)]
  | .anim _ => [(2, 0), (2, 1)]
  | .modl _ => [(1, 7)]
  | .matl _ => [(1, 6)]
  | .hlpb _ => [(1, 1)]
  | .meshEx _ => []
  | .adj _ => []

/-- The types whose version fields are looked at when the data is saved. -/
def versioned : DataFile → Bool
  | .mesh _ => true
  | .anim _ => true
  | .matl _ => true
  | _ => false

theorem header_of {α : Type} [t : SsbhType α] [LawSsbh α] {b : Bytes} {v : α} (h : writeAs v = .ok b) :
    headerVersion b = versionOf (t.inj v) :=
  (C08_read_checks b _ (C08_foreign_rejected b v (C01_format_round_trip v b h)).1).2.2.2.2.symm

theorem mesh_version {F : FloatConv} {bounds : List (Vector F32 3) → Mesh.BoundingInfo} {d : MeshData} {m : Mesh}
    (h : MeshData.toMesh F bounds d = .ok m) :
    (d.major_version, d.minor_version) ∈ [((1, 8) : UInt16 × UInt16), (1, 9), (1, 10)] ∧
      versionOf (.Mesh m) = (d.major_version, d.minor_version) := by
  simp only [MeshData.toMesh] at h
  split at h
  · cases h
  have key : ∀ {α : Type} {e : Except MeshErr α} {f : α → Mesh} , e.map f = .ok m → ∃ x, m = f x := by
    intro α e f he
    cases e with
    | error e => cases he
    | ok x => cases he; exact ⟨x, rfl⟩
  split at h
  · rename_i hv
    split at h
    · cases h
    obtain ⟨x, rfl⟩ := key h
    rw [hv.1, hv.2]
    exact ⟨by decide, rfl⟩
  split at h
  · rename_i hv
    split at h
    · cases h
    obtain ⟨x, rfl⟩ := key h
    rw [hv.1, hv.2]
    exact ⟨by decide, rfl⟩
  split at h
  · rename_i hv
    split at h
    · cases h
    obtain ⟨x, rfl⟩ := key h
    rw [hv.1, hv.2]
    exact ⟨by decide, rfl⟩
  · cases h

theorem anim_version {F : FloatOps} {d : AnimData} {a : Anim} (h : AnimData.create F d = .ok a) :
    (d.major_version, d.minor_version) ∈ [((2, 0) : UInt16 × UInt16), (2, 1)] ∧
      versionOf (.Anim a) = (d.major_version, d.minor_version) := by
  simp only [AnimData.create] at h
  split at h
  · rename_i hv
    split at h
    · cases h
    split at h
    · cases h
      rw [hv.1, hv.2]
      exact ⟨by decide, rfl⟩
    · cases h
  split at h
  · rename_i hv
    split at h
    · cases h
    split at h
    · cases h
      rw [hv.1, hv.2]
      exact ⟨by decide, rfl⟩
    · cases h
  · cases h

/-- The version in a saved file is one of the versions of the type. For meshes, animations and materials it is the
version of the data. -/
theorem C78_saved_partial (O : DataOps) (f : DataFile) (bytes : Bytes) (h : f.save O = .ok bytes)
    (hp : (dataVersion f).isSome) :
    headerVersion bytes ∈ savable f ∧ (versioned f → dataVersion f = some (headerVersion bytes)) := by
  cases f with
  | mesh d =>
    simp only [DataFile.save, MeshData.write] at h
    split at h
    · cases h
    rename_i m hm
    obtain ⟨h1, h2⟩ := mesh_version hm
    rw [header_of (liftWrite_ok.mp h)]
    exact ⟨by rw [show versionOf (SsbhType.inj m) = _ from h2]; exact h1, fun _ => congrArg some h2.symm⟩
  | skel d =>
    simp only [DataFile.save, SkelData.write] at h
    split at h
    · rename_i s hs
      rw [header_of (liftWrite_ok.mp h)]
      cases s
      exact ⟨.head _, nofun⟩
    · cases h
  | anim d =>
    simp only [DataFile.save, AnimData.write] at h
    split at h
    · cases h
    rename_i a ha
    obtain ⟨h1, h2⟩ := anim_version ha
    rw [header_of (liftWrite_ok.mp h)]
    exact ⟨by rw [show versionOf (SsbhType.inj a) = _ from h2]; exact h1, fun _ => congrArg some h2.symm⟩
  | modl d =>
    rw [header_of (liftWrite_ok.mp h)]
    exact ⟨.head _, nofun⟩
  | matl d =>
    have hv := (C45_matl d bytes h).1
    simp only [DataFile.save, MatlData.write, MatlData.toMatl, if_pos hv] at h
    rw [header_of (liftWrite_ok.mp h)]
    simp only [dataVersion, hv.1, hv.2]
    exact ⟨.head _, fun _ => rfl⟩
  | hlpb d =>
    rw [header_of (liftWrite_ok.mp h)]
    exact ⟨.head _, nofun⟩
  | meshEx d => cases hp
  | adj d => cases hp

/-- Meshes, animations and materials with any other version are not saved. -/
theorem C78_rejected (O : DataOps) (f : DataFile) (hf : versioned f) (v : UInt16 × UInt16)
    (hv : dataVersion f = some v) (hs : v ∉ savable f) : f.save O = .error .convert := by
  cases f with
  | mesh d =>
    cases hv
    simp only [DataFile.save, MeshData.write]
    split
    · rfl
    · rename_i m hm
      exact absurd (mesh_version hm).1 hs
  | anim d =>
    cases hv
    simp only [DataFile.save, AnimData.write]
    split
    · rfl
    · rename_i m hm
      exact absurd (anim_version hm).1 hs
  | matl d =>
    cases hv
    simp only [DataFile.save, MatlData.write, MatlData.toMatl]
    rw [if_neg fun h => hs (by rw [h.1, h.2]; exact .head _)]
  | _ => cases hf

/-- The version fields of the other types play no role: with any version the same file is saved. -/
theorem C78_ignored (O : DataOps) (major minor : UInt16) :
    (∀ d : SkelData, (DataFile.skel { d with major_version := major, minor_version := minor }).save O =
      (DataFile.skel d).save O) ∧
    (∀ d : ModlData, (DataFile.modl { d with major_version := major, minor_version := minor }).save O =
      (DataFile.modl d).save O) ∧
    (∀ d : HlpbData, (DataFile.hlpb { d with major_version := major, minor_version := minor }).save O =
      (DataFile.hlpb d).save O) :=
  ⟨fun _ => rfl, fun _ => rfl, fun _ => rfl⟩

example (O : DataOps) : ∃ bytes, (DataFile.matl ⟨1, 6, []⟩).save O = .ok bytes ∧ headerVersion bytes = (1, 6) := by
  obtain ⟨bytes, h⟩ : ∃ b, (⟨1, 6, []⟩ : MatlData).write = .ok b := isOk_iff.mp (by decide +kernel)
  have := (C78_saved_partial O (.matl ⟨1, 6, []⟩) bytes h rfl).2 rfl
  exact ⟨bytes, h, (Option.some.inj this).symm⟩

example (O : DataOps) : (DataFile.matl ⟨1, 5, []⟩).save O = .error .convert :=
  C78_rejected O _ rfl (1, 5) rfl (by decide)

example (O : DataOps) : (DataFile.anim ⟨1, 2, 0, []⟩).save O = .error .convert :=
  C78_rejected O _ rfl (1, 2) rfl (by decide)

/-- The full statement, that saved data has its own version, fails for SkelData, ModlData and HlpbData. -/
theorem C78_not_kept (O : DataOps) : ∃ (f : DataFile) (bytes : Bytes), f.save O = .ok bytes ∧
    dataVersion f = some (9, 9) ∧ headerVersion bytes = (1, 7) := by
  obtain ⟨bytes, h⟩ : ∃ b, (⟨9, 9, "m", "s", [], none, "f", []⟩ : ModlData).write = .ok b := isOk_iff.mp (by decide +kernel)
  refine ⟨.modl _, bytes, h, rfl, ?_⟩
  rw [header_of (liftWrite_ok.mp h)]
  rfl

/-! ## Materials of version 1.5 -/

/-- What a file of version 1.5 keeps of a blend state. -/
def oldBlend (b : MatlData.BlendStateData) : MatlData.BlendStateData where
  source_color := b.source_color
  color_operation := .Add
  destination_color := b.destination_color
  source_alpha := .One
  alpha_operation := .Add
  destination_alpha := .Zero
  alpha_sample_to_coverage := false

/-- What a file of version 1.5 keeps of a rasterizer state. -/
def oldRasterizer (r : MatlData.RasterizerStateData) : MatlData.RasterizerStateData where
  fill_mode := .Solid
  cull_mode := r.cull_mode
  depth_bias := 0

def oldEntry (e : MatlData.MatlEntryData) : MatlData.MatlEntryData :=
  { mapEntryText cutNul e with
    blend_states := e.blend_states.map fun p => ⟨p.param_id, oldBlend p.data⟩
    rasterizer_states := e.rasterizer_states.map fun p => ⟨p.param_id, oldRasterizer p.data⟩ }

theorem getV15_append (f : Matl.ParamV15 → Option α) (l₁ l₂ : List Matl.AttributeV15) :
    MatlData.getV15 f (l₁ ++ l₂) = MatlData.getV15 f l₁ ++ MatlData.getV15 f l₂ := List.filterMap_append

theorem getV15_none (f : Matl.ParamV15 → Option α) (g : β → Matl.ParamV15) (h : ∀ b, f (g b) = none)
    (l : List (MatlData.ParamData β)) : MatlData.getV15 f (l.map (MatlData.attrV15 g)) = [] := by
  induction l with
  | nil => rfl
  | cons x l ih =>
    simp only [MatlData.getV15, MatlData.attrV15, List.map_cons, List.filterMap_cons, Option.bind_some, h,
      Option.map_none] at ih ⊢
    exact ih

theorem getV15_some (f : Matl.ParamV15 → Option α) (g : β → Matl.ParamV15) (k : β → α)
    (h : ∀ b, f (g b) = some (k b)) (l : List (MatlData.ParamData β)) :
    MatlData.getV15 f (l.map (MatlData.attrV15 g)) = l.map fun p => ⟨p.param_id, k p.data⟩ := by
  induction l with
  | nil => rfl
  | cons x l ih =>
    simp only [MatlData.getV15, MatlData.attrV15, List.map_cons, List.filterMap_cons, Option.bind_some, h,
      Option.map_some] at ih ⊢
    rw [ih]

/-- A material converted to an entry of version 1.5 and back has the same parameters of every kind in the same order;
samplers, textures, numbers, vectors, booleans and texture transforms are unchanged (text up to NUL), blend states keep
only the two color factors and rasterizer states only the cull mode. -/
theorem C78_old_entry (e : MatlData.MatlEntryData) : MatlData.MatlEntryData.ofV15 e.toV15 = oldEntry e := by
  have hid : ∀ {α : Type} (l : List (MatlData.ParamData α)) (k : α → α), (∀ x, k x = x) →
      (l.map fun p => (⟨p.param_id, k p.data⟩ : MatlData.ParamData α)) = l := by
    intro α l k hk
    apply map_id_of_forall
    intro x _
    rw [hk]
  simp only [MatlData.MatlEntryData.ofV15, MatlData.MatlEntryData.toV15, oldEntry, mapEntryText, toStringLossy_ssbhText,
    getV15_append, MatlData.MatlEntryData.mk.injEq, true_and]
  refine ⟨?_, ?_, ?_, ?_, ?_, ?_, ?_, ?_⟩
  · rw [getV15_some (α := MatlData.BlendStateData) _ (fun s : MatlData.BlendStateData => .BlendState s.toV15)
      oldBlend (fun s => rfl)]
    simp [getV15_none]
  · rw [getV15_some _ .Float (fun x => x) (fun _ => rfl), hid _ (fun x => x) (fun _ => rfl)]
    simp [getV15_none]
  · rw [getV15_some _ (fun b : Bool => .Boolean (if b then 1 else 0)) (fun x => x) (fun b => by cases b <;> rfl),
      hid _ (fun x => x) (fun _ => rfl)]
    simp [getV15_none]
  · rw [getV15_some _ .Vector4 (fun x => x) (fun _ => rfl), hid _ (fun x => x) (fun _ => rfl)]
    simp [getV15_none]
  · rw [getV15_some _ (fun s : MatlData.RasterizerStateData => .RasterizerState s.toV15) oldRasterizer (fun _ => rfl)]
    simp [getV15_none]
  · rw [getV15_some (α := MatlData.SamplerData) _ (fun s : MatlData.SamplerData => .Sampler s.toSampler)
      (fun x => x) (fun s => by simp only [sampler_round_trip]), hid _ (fun x => x) (fun _ => rfl)]
    simp [getV15_none]
  · rw [getV15_some _ (fun s : String => .String (ssbhText s)) cutNul (fun s => by simp [toStringLossy_ssbhText])]
    simp [getV15_none]
  · rw [getV15_some _ .UvTransform (fun x => x) (fun _ => rfl), hid _ (fun x => x) (fun _ => rfl)]
    simp [getV15_none]

/-- So the material comes back unchanged exactly if it has no other settings and its texts have no NUL. -/
theorem C78_old_entry_same (e : MatlData.MatlEntryData) : MatlData.MatlEntryData.ofV15 e.toV15 = e ↔
    (∀ s ∈ entryTexts e, cutNul s = s) ∧ (∀ p ∈ e.blend_states, oldBlend p.data = p.data) ∧
      ∀ p ∈ e.rasterizer_states, oldRasterizer p.data = p.data := by
  have hmap : ∀ {α : Type} (l : List (MatlData.ParamData α)) (k : α → α),
      (l.map fun p => (⟨p.param_id, k p.data⟩ : MatlData.ParamData α)) = l ↔ ∀ p ∈ l, k p.data = p.data := by
    intro α l k
    induction l with
    | nil => simp
    | cons x l ih =>
      cases x
      simp [ih]
  rw [C78_old_entry]
  cases e
  simp only [oldEntry, mapEntryText, MatlData.MatlEntryData.mk.injEq, true_and, and_true, hmap, entryTexts, List.mem_cons,
    List.mem_map]
  constructor
  · rintro ⟨h1, h2, h3, h4, h5⟩
    exact ⟨fun s hs => by
      rcases hs with rfl | rfl | ⟨t, hm, rfl⟩
      · exact h1
      · exact h2
      · exact h5 t hm, h3, h4⟩
  · rintro ⟨h1, h2, h3⟩
    exact ⟨h1 _ (.inl rfl), h1 _ (.inr (.inl rfl)), h2, h3, fun t hm => h1 _ (.inr (.inr ⟨t, hm, rfl⟩))⟩

/-- Materials that are kept, and one that is not: the operation of the blend state is lost. -/
example : MatlData.MatlEntryData.ofV15
    (⟨"m", "s", [⟨param 280, ⟨.SourceAlpha, .Add, .Zero, .One, .Add, .Zero, false⟩⟩], [⟨param 200, 7⟩], [], [],
      [⟨param 291, ⟨.Solid, .Front, 0⟩⟩], [], [], []⟩ : MatlData.MatlEntryData).toV15 =
    ⟨"m", "s", [⟨param 280, ⟨.SourceAlpha, .Add, .Zero, .One, .Add, .Zero, false⟩⟩], [⟨param 200, 7⟩], [], [],
      [⟨param 291, ⟨.Solid, .Front, 0⟩⟩], [], [], []⟩ :=
  (C78_old_entry_same _).mpr (by decide +kernel)

theorem C78_old_entry_lost : ∃ e : MatlData.MatlEntryData, MatlData.MatlEntryData.ofV15 e.toV15 ≠ e :=
  ⟨⟨"m", "s", [⟨param 280, ⟨.One, .Subtract, .Zero, .One, .Add, .Zero, false⟩⟩], [], [], [], [], [], [], []⟩,
    fun h => absurd ((C78_old_entry_same _).mp h).2.1 (by decide)⟩

/-- A file of version 1.5 can be opened, but the data can not be saved, although the documentation lists this version. -/
theorem C78_old_not_saved (file : Bytes) (m : Matl.V15Data) (h : readAs Matl file = .ok (.V15 m)) :
    ∃ d, MatlData.read file = .ok d ∧ (d.major_version = 1 ∧ d.minor_version = 5) ∧ d.write = .error .convert := by
  refine ⟨MatlData.ofMatl (.V15 m), by rw [MatlData.read, h]; rfl, ⟨rfl, rfl⟩, ?_⟩
  rfl

/-- The data of any material file saved as version 1.6 is the same when it is opened again. -/
theorem C78_upgrade (file : Bytes) (d : MatlData) (h : MatlData.read file = .ok d) (bytes : Bytes)
    (hw : MatlData.write { d with major_version := 1, minor_version := 6 } = .ok bytes) :
    MatlData.read bytes = .ok { d with major_version := 1, minor_version := 6 } := by
  obtain ⟨m, _, rfl⟩ := map_ok h
  rw [(C45_matl _ _ hw).2]
  cases m with
  | V16 m =>
    have := C47_matl file _ h bytes hw
    rw [(C45_matl _ _ hw).2] at this
    exact this
  | V15 m =>
    simp only [MatlData.ofMatl, List.map_map]
    congr 2
    apply List.map_congr_left
    intro e _
    simp only [Function.comp, MatlData.MatlEntryData.ofV15, mapEntryText, cutNul_toStringLossy,
      MatlData.MatlEntryData.mk.injEq, true_and, and_true]
    apply map_id_of_forall
    intro t ht
    simp only [MatlData.getV15, List.mem_filterMap] at ht
    obtain ⟨a, _, ha⟩ := ht
    rw [Option.map_eq_some_iff] at ha
    obtain ⟨s, hs, rfl⟩ := ha
    rw [Option.bind_eq_some_iff] at hs
    obtain ⟨p, _, hp⟩ := hs
    split at hp
    · cases hp
      simp [cutNul_toStringLossy]
    · cases hp

example : ∃ file d bytes, readAs Matl file = .ok oldMatl ∧ MatlData.read file = .ok d ∧ d.write = .error .convert ∧
    MatlData.write { d with major_version := 1, minor_version := 6 } = .ok bytes ∧
    MatlData.read bytes = .ok { d with major_version := 1, minor_version := 6 } := by
  obtain ⟨file, h⟩ : ∃ b, liftWrite (writeAs oldMatl) = .ok b := isOk_iff.mp (by decide +kernel)
  have hr := C01_format_round_trip oldMatl file (liftWrite_ok.mp h)
  obtain ⟨bytes, hw⟩ : ∃ b, MatlData.write { MatlData.ofMatl oldMatl with major_version := 1, minor_version := 6 } = .ok b :=
    isOk_iff.mp (by decide +kernel)
  have hd : MatlData.read file = .ok (MatlData.ofMatl oldMatl) := by rw [MatlData.read, hr]; rfl
  exact ⟨file, _, bytes, hr, hd, rfl, hw, C78_upgrade file _ hd bytes hw⟩

end Verif.Props
