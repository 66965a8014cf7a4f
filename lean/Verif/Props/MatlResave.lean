import Verif.Props.SavedFields
import Verif.Props.Shown
import Verif.Props.DataFiles
import Mathlib.Data.List.Forall2
/-!
# C116: Opening and saving material files

What happens to the attributes of a material file of another program that is opened as `MatlData` and saved.
-/

namespace Verif.Props

/-- Text is kept; a string which is null or not UTF-8 becomes the empty string. -/
def keptString (s s' : SsbhString) : Prop := ∃ t, IsText t s ∧ ∃ c, s' = some c ∧ c.bytes = textBytes t

/-- The same attribute, but for fields which are not in the data. -/
inductive KeptParam : Matl.ParamV16 → Matl.ParamV16 → Prop
  | float (v) : KeptParam (.Float v) (.Float v)
  | vector (v) : KeptParam (.Vector4 v) (.Vector4 v)
  | uv (v) : KeptParam (.UvTransform v) (.UvTransform v)
  | false : KeptParam (.Boolean 0) (.Boolean 0)
  | true {b} : b ≠ 0 → KeptParam (.Boolean b) (.Boolean 1)
  | string {s s'} : keptString s s' → KeptParam (.String s) (.String s')
  | anisotropic {s : Matl.Sampler} : s.texture_filtering_type = .AnisotropicFiltering → s.max_anisotropy ≠ .One →
      KeptParam (.Sampler s) (.Sampler { s with unk11 := 0, unk12 := 2139095022 })
  | sampler {s : Matl.Sampler} : s.texture_filtering_type ≠ .AnisotropicFiltering ∨ s.max_anisotropy = .One →
      KeptParam (.Sampler s)
        (.Sampler { s with unk11 := 0, unk12 := 2139095022, texture_filtering_type := .Default, max_anisotropy := .One })
  | blend {s : Matl.BlendStateV16} : s.alpha_sample_to_coverage ≠ 0 →
      KeptParam (.BlendState s) (.BlendState { s with alpha_sample_to_coverage := 1, unk8 := 0, unk9 := 0, unk10 := 5 })
  | blendOff {s : Matl.BlendStateV16} : s.alpha_sample_to_coverage = 0 →
      KeptParam (.BlendState s) (.BlendState { s with alpha_sample_to_coverage := 0, unk8 := 0, unk9 := 0, unk10 := 5 })
  | rasterizer (s : Matl.RasterizerStateV16) :
      KeptParam (.RasterizerState s) (.RasterizerState { s with unk4 := 0, unk5 := 0, unk6 := 16777217 })

/-- The same id and value. -/
def KeptAttribute (a a' : Matl.AttributeV16) : Prop :=
  a'.param_id = a.param_id ∧ ∃ p p', a.param = some p ∧ a'.param = some p' ∧ KeptParam p p'

/-- The numbers of the types of attributes, in the order in which they are saved. -/
def savedKinds : List Nat := [17, 2, 1, 5, 18, 14, 11, 16]

/-- The attributes of the type with this number. -/
def ofKind (k : Nat) (l : List Matl.AttributeV16) : List Matl.AttributeV16 := l.filter fun a => kindOf a.param == k

/-- The attributes of a saved material: those of the opened one, sorted by type, in the same order for each type.
Attributes without value and of type 7 are lost. -/
def KeptAttributes (l l' : List Matl.AttributeV16) : Prop := List.Forall₂ KeptAttribute (savedKinds.flatMap (ofKind · l)) l'

theorem toStringLossy_isText (s : SsbhString) : keptString s (ssbhText (toStringLossy s)) := by
  refine ⟨toStringLossy s, isText_lossy s, _, rfl, ?_⟩
  rw [fromBytes_textBytes, cutNul_toStringLossy]

theorem kept_segment {k : Nat} (hk : k ≠ 0) {f : Matl.ParamV16 → Option α} {g : α → Matl.ParamV16}
    (h1 : ∀ p v, f p = some v → kindOf (some p) = k ∧ KeptParam p (g v)) (h2 : ∀ p, f p = none → kindOf (some p) ≠ k) :
    ∀ l, List.Forall₂ KeptAttribute (ofKind k l) ((MatlData.getV16 f l).map (MatlData.attrV16 g))
  | [] => .nil
  | a :: l => by
    have ih := kept_segment hk h1 h2 l
    unfold ofKind MatlData.getV16 at ih ⊢
    rw [List.filter_cons, List.filterMap_cons]
    cases hp : a.param with
    | none =>
      have : (kindOf none == k) = false := by simpa [kindOf] using hk.symm
      simpa [this] using ih
    | some p =>
      cases hf : f p with
      | none =>
        have : (kindOf (some p) == k) = false := by simpa using h2 p hf
        simpa [this, hf] using ih
      | some v =>
        obtain ⟨e, hkept⟩ := h1 p v hf
        have : (kindOf (some p) == k) = true := by simpa using e
        simp only [this, if_true, Option.bind_some, hf, Option.map_some, List.map_cons]
        exact .cons ⟨rfl, p, g v, hp, rfl, hkept⟩ ih

theorem kept_bool (b : UInt32) : KeptParam (.Boolean b) (.Boolean (if (b != 0) = true then 1 else 0)) := by
  by_cases h : b = 0
  · subst h; exact .false
  · simpa [h] using KeptParam.true h

theorem kept_sampler (s : Matl.Sampler) : KeptParam (.Sampler s) (.Sampler (MatlData.SamplerData.ofSampler s).toSampler) := by
  by_cases h : s.texture_filtering_type = .AnisotropicFiltering ∧ s.max_anisotropy ≠ .One
  · have e : (MatlData.SamplerData.ofSampler s).toSampler = { s with unk11 := 0, unk12 := 2139095022 } := by
      cases s
      simp_all [MatlData.SamplerData.ofSampler, MatlData.SamplerData.toSampler]
    rw [e]
    exact .anisotropic h.1 h.2
  · have h' : s.texture_filtering_type ≠ .AnisotropicFiltering ∨ s.max_anisotropy = .One := by
      by_cases h1 : s.texture_filtering_type = .AnisotropicFiltering
      · exact .inr (by by_contra h2; exact h ⟨h1, h2⟩)
      · exact .inl h1
    have hm : (MatlData.SamplerData.ofSampler s).max_anisotropy = .One := by
      simp only [MatlData.SamplerData.ofSampler]
      rcases h' with h' | h'
      · rw [if_neg h']
      · rw [h']; split <;> rfl
    have e : (MatlData.SamplerData.ofSampler s).toSampler =
        { s with unk11 := 0, unk12 := 2139095022, texture_filtering_type := .Default, max_anisotropy := .One } := by
      simp only [MatlData.SamplerData.toSampler, hm, if_true]
      rfl
    rw [e]
    exact .sampler h'

theorem kept_blend (s : Matl.BlendStateV16) : KeptParam (.BlendState s) (.BlendState (MatlData.BlendStateData.ofV16 s).toV16) := by
  by_cases h : s.alpha_sample_to_coverage = 0
  · have e : (MatlData.BlendStateData.ofV16 s).toV16 = { s with alpha_sample_to_coverage := 0, unk8 := 0, unk9 := 0, unk10 := 5 } := by
      simp [MatlData.BlendStateData.ofV16, MatlData.BlendStateData.toV16, h]
    rw [e]; exact .blendOff h
  · have e : (MatlData.BlendStateData.ofV16 s).toV16 = { s with alpha_sample_to_coverage := 1, unk8 := 0, unk9 := 0, unk10 := 5 } := by
      simp [MatlData.BlendStateData.ofV16, MatlData.BlendStateData.toV16, h]
    rw [e]; exact .blend h

theorem C116_entry (e : Matl.MatlEntryV16) : KeptAttributes e.attributes (MatlData.MatlEntryData.ofV16 e).toV16.attributes := by
  unfold KeptAttributes savedKinds
  simp only [List.flatMap_cons, List.flatMap_nil, List.append_nil, MatlData.MatlEntryData.toV16, MatlData.MatlEntryData.ofV16,
    List.append_assoc]
  refine List.rel_append ?_ (List.rel_append ?_ (List.rel_append ?_ (List.rel_append ?_ (List.rel_append ?_ (List.rel_append ?_
    (List.rel_append ?_ ?_))))))
  · refine kept_segment (by decide) ?_ ?_ _
    · intro p v h; cases p <;> simp at h; subst h; exact ⟨rfl, kept_blend _⟩
    · intro p h; cases p <;> simp_all [kindOf]
  · refine kept_segment (by decide) ?_ ?_ _
    · intro p v h; cases p <;> simp at h; subst h; exact ⟨rfl, by simpa using kept_bool _⟩
    · intro p h; cases p <;> simp_all [kindOf]
  · refine kept_segment (by decide) ?_ ?_ _
    · intro p v h; cases p <;> simp at h; subst h; exact ⟨rfl, .float _⟩
    · intro p h; cases p <;> simp_all [kindOf]
  · refine kept_segment (by decide) ?_ ?_ _
    · intro p v h; cases p <;> simp at h; subst h; exact ⟨rfl, .vector _⟩
    · intro p h; cases p <;> simp_all [kindOf]
  · refine kept_segment (by decide) ?_ ?_ _
    · intro p v h; cases p <;> simp at h; subst h; exact ⟨rfl, .rasterizer _⟩
    · intro p h; cases p <;> simp_all [kindOf]
  · refine kept_segment (by decide) ?_ ?_ _
    · intro p v h; cases p <;> simp at h; subst h; exact ⟨rfl, kept_sampler _⟩
    · intro p h; cases p <;> simp_all [kindOf]
  · refine kept_segment (by decide) ?_ ?_ _
    · intro p v h; cases p <;> simp at h; subst h; exact ⟨rfl, .string (toStringLossy_isText _)⟩
    · intro p h; cases p <;> simp_all [kindOf]
  · refine kept_segment (by decide) ?_ ?_ _
    · intro p v h; cases p <;> simp at h; subst h; exact ⟨rfl, .uv _⟩
    · intro p h; cases p <;> simp_all [kindOf]

theorem perm_kinds : ∀ (ks : List Nat), ks.Nodup → ∀ l : List Matl.AttributeV16,
    (ks.flatMap (ofKind · l)).Perm (l.filter fun a => ks.contains (kindOf a.param))
  | [], _, l => by simp
  | k :: ks, hk, l => by
    rw [List.nodup_cons] at hk
    have ih := perm_kinds ks hk.2 l
    rw [List.flatMap_cons]
    refine (ih.append_left _).trans ?_
    have := List.filter_append_perm (fun a : Matl.AttributeV16 => kindOf a.param == k)
      (l.filter fun a => (k :: ks).contains (kindOf a.param))
    refine List.Perm.trans (List.Perm.of_eq ?_) this
    rw [List.filter_filter, List.filter_filter]
    congr 1
    · refine List.filter_congr fun a _ => ?_
      by_cases h : kindOf a.param = k <;> simp [h]
    · refine List.filter_congr fun a _ => ?_
      by_cases h : kindOf a.param = k
      · simp [h, hk.1]
      · simp [h]

/-- Nothing else is lost, and nothing is added: up to the order, the attributes of the saved material are the ones with
a value of another type than 7. -/
theorem C116_lost (l l' : List Matl.AttributeV16) (h : KeptAttributes l l') :
    ∃ m, m.Perm (l.filter fun a => decide (kindOf a.param ≠ 0 ∧ kindOf a.param ≠ 7)) ∧ List.Forall₂ KeptAttribute m l' := by
  refine ⟨_, (perm_kinds savedKinds (by decide) l).trans (List.Perm.of_eq ?_), h⟩
  refine List.filter_congr fun a _ => ?_
  rcases a with ⟨i, _ | p⟩
  · rfl
  · cases p <;> rfl

theorem getV16_ofKind {k : Nat} {f : Matl.ParamV16 → Option α} (h : ∀ p, kindOf (some p) ≠ k → f p = none) :
    ∀ l, MatlData.getV16 f (ofKind k l) = MatlData.getV16 f l
  | [] => rfl
  | a :: l => by
    have ih := getV16_ofKind h l
    unfold ofKind MatlData.getV16 at ih ⊢
    rw [List.filter_cons, List.filterMap_cons]
    by_cases hk : kindOf a.param = k
    · simp only [hk, beq_self_eq_true, if_true, List.filterMap_cons, ih]
    · have hn : a.param.bind f = none := by
        cases hp : a.param with
        | none => rfl
        | some p => rw [hp] at hk; exact h p hk
      simpa [hk, hn] using ih

/-- The order between attributes of different types does not matter for the opened material. -/
theorem C116_order (e e' : Matl.MatlEntryV16) (hm : e.material_label = e'.material_label) (hs : e.shader_label = e'.shader_label)
    (h : ∀ k ∈ savedKinds, ofKind k e.attributes = ofKind k e'.attributes) :
    MatlData.MatlEntryData.ofV16 e = MatlData.MatlEntryData.ofV16 e' := by
  have key : ∀ {α : Type} (k : Nat) (f : Matl.ParamV16 → Option α), k ∈ savedKinds → (∀ p, kindOf (some p) ≠ k → f p = none) →
      MatlData.getV16 f e.attributes = MatlData.getV16 f e'.attributes := by
    intro α k f hk hf
    rw [← getV16_ofKind hf e.attributes, ← getV16_ofKind hf e'.attributes, h k hk]
  unfold MatlData.MatlEntryData.ofV16
  rw [hm, hs]
  congr 1
  · exact key 17 _ (by decide) (by intro p; cases p <;> simp [kindOf])
  · exact key 1 _ (by decide) (by intro p; cases p <;> simp [kindOf])
  · exact key 2 _ (by decide) (by intro p; cases p <;> simp [kindOf])
  · exact key 5 _ (by decide) (by intro p; cases p <;> simp [kindOf])
  · exact key 18 _ (by decide) (by intro p; cases p <;> simp [kindOf])
  · exact key 14 _ (by decide) (by intro p; cases p <;> simp [kindOf])
  · exact key 11 _ (by decide) (by intro p; cases p <;> simp [kindOf])
  · exact key 16 _ (by decide) (by intro p; cases p <;> simp [kindOf])

/-- A material file of version 1.6 that is opened and saved: which attributes the new file has. -/
theorem C116_file (file : Bytes) (m : Matl.V16Data) (hm : readAs Matl file = .ok (.V16 m)) (d : MatlData)
    (hr : MatlData.read file = .ok d) (bytes : Bytes) (hw : d.write = .ok bytes) :
    ∃ m', readAs Matl bytes = .ok (.V16 m') ∧
      List.Forall₂ (fun e e' : Matl.MatlEntryV16 => keptString e.material_label e'.material_label ∧
        keptString e.shader_label e'.shader_label ∧ KeptAttributes e.attributes e'.attributes) m.entries m'.entries := by
  rw [MatlData.read, hm] at hr
  cases hr
  refine ⟨⟨(m.entries.map MatlData.MatlEntryData.ofV16).map (·.toV16)⟩, ?_, ?_⟩
  · exact C01_format_round_trip (α := Matl) _ bytes (liftWrite_ok.mp hw)
  · rw [List.map_map]
    induction m.entries with
    | nil => exact .nil
    | cons e es ih => exact .cons ⟨toStringLossy_isText _, toStringLossy_isText _, C116_entry e⟩ ih

/-- A material of another program: in another order, with a null attribute, one of type 7 and unusual values. -/
def oddMatl : Matl.V16Data := ⟨[{
  material_label := none
  shader_label := ssbhText "SFX_PBS"
  attributes := [⟨param 200, some (.Float 7)⟩, ⟨param 152, none⟩, ⟨param 153, some (.Unk7 ⟨1, 2, 3, 4⟩)⟩,
    ⟨param 233, some (.Boolean 5)⟩, ⟨param 291, some (.RasterizerState ⟨.Line, .Back, 5, 1, 2, 3⟩)⟩, ⟨param 235, some (.Boolean 0)⟩] }]⟩

example : ∃ file d bytes, readAs Matl file = .ok (.V16 oddMatl) ∧ MatlData.read file = .ok d ∧ d.write = .ok bytes := by
  obtain ⟨file, hf⟩ := isOk_iff.mp (by decide +kernel : isOk (writeAs (Matl.V16 oddMatl)) = true)
  have hr := C01_format_round_trip _ _ hf
  obtain ⟨bytes, hb⟩ := isOk_iff.mp (by decide +kernel : isOk (MatlData.ofMatl (.V16 oddMatl)).write = true)
  exact ⟨file, _, bytes, hr, by rw [MatlData.read, hr]; rfl, hb⟩

/-- Four of the six attributes are kept. -/
example : (oddMatl.entries.map fun e => (savedKinds.flatMap (ofKind · e.attributes)).map (·.param_id)) =
    [[param 233, param 235, param 200, param 291]] := by decide +kernel

example (e : Matl.MatlEntryV16) (he : oddMatl.entries = [e]) :
    MatlData.MatlEntryData.ofV16 e =
      MatlData.MatlEntryData.ofV16 { e with attributes := savedKinds.flatMap (ofKind · e.attributes) } := by
  cases he
  exact C116_order _ _ rfl rfl (by decide +kernel)

end Verif.Props
