import Verif.Props.Edits
import Verif.Derive.EditFacts
import Verif.Data.DataFiles
import Verif.Props.Conversions
import Mathlib.Data.List.TakeWhile
/-!
# C93: small changes of materials
-/

namespace Verif.Props
open Verif Derive MatlData

def attrEdit (a a' : Matl.AttributeV16) : Option Nat :=
  Matl.AttributeV16.ty.edit (Derives.val Matl.AttributeV16.codec a) (Derives.val Matl.AttributeV16.codec a')

def entryEdit (e e' : Matl.MatlEntryV16) : Option Nat :=
  Matl.MatlEntryV16.ty.edit (Derives.val Matl.MatlEntryV16.codec e) (Derives.val Matl.MatlEntryV16.codec e')

theorem attrEdit_refl (a) : attrEdit a a = some 0 := Ty.edit_refl _ _
theorem entryEdit_refl (a) : entryEdit a a = some 0 := Ty.edit_refl _ _

theorem editAll_map {f : α → α → Option Nat} (g : β → α) : ∀ l l' : List β, editAll f (l.map g) (l'.map g) = editAll (fun a b => f (g a) (g b)) l l'
  | [], [] => rfl
  | [], _ :: _ => rfl
  | _ :: _, [] => rfl
  | _ :: l, _ :: l' => by simp only [List.map_cons, editAll, editAll_map g l l']

theorem matlEdit_eq (l l' : List Matl.MatlEntryV16) :
    editFile (.Matl (.V16 ⟨l⟩)) (.Matl (.V16 ⟨l'⟩)) = editAll entryEdit l l' := by
  have : editFile (.Matl (.V16 ⟨l⟩)) (.Matl (.V16 ⟨l'⟩)) =
      plus (editAll Matl.MatlEntryV16.ty.edit (l.map (Derives.val Matl.MatlEntryV16.codec)) (l'.map (Derives.val Matl.MatlEntryV16.codec)))
        (some 0) := rfl
  rw [this, plus_zero', editAll_map]
  rfl

/-- At most `k`. -/
def Upto (o : Option Nat) (k : Nat) : Prop := ∃ n, n ≤ k ∧ o = some n

theorem Upto.plus {o o' : Option Nat} {k k' : Nat} (h : Upto o k) (h' : Upto o' k') : Upto (plus o o') (k + k') := by
  obtain ⟨n, hn, rfl⟩ := h
  obtain ⟨n', hn', rfl⟩ := h'
  exact ⟨n + n', Nat.add_le_add hn hn', rfl⟩

theorem Upto.zero : Upto (some 0) 0 := ⟨0, le_rfl, rfl⟩

theorem changed_upto [DecidableEq α] {n : Nat} {a a' : α} {p : Prop} [Decidable p] (h : a = a' → p) :
    Upto (some (if p then 0 else n)) (changed n a a') := by
  refine ⟨_, ?_, rfl⟩
  unfold changed
  by_cases ha : a = a'
  · rw [if_pos (h ha)]; exact Nat.zero_le _
  · rw [if_neg ha]; split <;> omega

def editVector4 (v v' : Vector4) : Nat := changed 4 v.x v'.x + (changed 4 v.y v'.y + (changed 4 v.z v'.z + changed 4 v.w v'.w))

def editColor (v v' : Color4f) : Nat := changed 4 v.r v'.r + (changed 4 v.g v'.g + (changed 4 v.b v'.b + changed 4 v.a v'.a))

def editBlend (v v' : BlendStateData) : Nat :=
  changed 4 v.source_color v'.source_color + (changed 4 v.color_operation v'.color_operation +
  (changed 4 v.destination_color v'.destination_color + (changed 4 v.source_alpha v'.source_alpha +
  (changed 4 v.alpha_operation v'.alpha_operation + (changed 4 v.destination_alpha v'.destination_alpha +
  changed 4 v.alpha_sample_to_coverage v'.alpha_sample_to_coverage)))))

def editRasterizer (v v' : RasterizerStateData) : Nat :=
  changed 4 v.fill_mode v'.fill_mode + (changed 4 v.cull_mode v'.cull_mode + changed 4 v.depth_bias v'.depth_bias)

/-- The anisotropy is saved in two places. -/
def editSampler (v v' : SamplerData) : Nat :=
  changed 4 v.wraps v'.wraps + (changed 4 v.wrapt v'.wrapt + (changed 4 v.wrapr v'.wrapr + (changed 4 v.min_filter v'.min_filter +
  (changed 4 v.mag_filter v'.mag_filter + (changed 4 v.max_anisotropy v'.max_anisotropy + (editColor v.border_color v'.border_color +
  (changed 4 v.lod_bias v'.lod_bias + changed 4 v.max_anisotropy v'.max_anisotropy)))))))

def editUv (v v' : Matl.UvTransform) : Nat :=
  changed 4 v.scale_u v'.scale_u + (changed 4 v.scale_v v'.scale_v + (changed 4 v.rotation v'.rotation +
  (changed 4 v.translate_u v'.translate_u + changed 4 v.translate_v v'.translate_v)))

/-- The characters up to the first zero. -/
def editText (s s' : String) : Option Nat := editBytes ((textBytes s).takeWhile (· ≠ 0)) ((textBytes s').takeWhile (· ≠ 0))

/-- The bytes that change in a parameter. -/
def editParam (f : α → α → Option Nat) (p p' : ParamData α) : Option Nat :=
  plus (some (changed 8 p.param_id p'.param_id)) (f p.data p'.data)

/-- The bytes that change in a material. -/
def editMaterial (e e' : MatlEntryData) : Option Nat :=
  plus (editText e.material_label e'.material_label) <|
  plus (editText e.shader_label e'.shader_label) <|
  plus (editAll (editParam fun v v' => some (editBlend v v')) e.blend_states e'.blend_states) <|
  plus (editAll (editParam fun v v' => some (changed 4 v v')) e.booleans e'.booleans) <|
  plus (editAll (editParam fun v v' => some (changed 4 v v')) e.floats e'.floats) <|
  plus (editAll (editParam fun v v' => some (editVector4 v v')) e.vectors e'.vectors) <|
  plus (editAll (editParam fun v v' => some (editRasterizer v v')) e.rasterizer_states e'.rasterizer_states) <|
  plus (editAll (editParam fun v v' => some (editSampler v v')) e.samplers e'.samplers) <|
  plus (editAll (editParam editText) e.textures e'.textures) <|
  editAll (editParam fun v v' => some (editUv v v')) e.uv_transforms e'.uv_transforms

/-- The bytes that change in a file with materials. -/
def editMaterials (d d' : MatlData) : Option Nat :=
  if d.major_version = d'.major_version ∧ d.minor_version = d'.minor_version then editAll editMaterial d.entries d'.entries else none

theorem changed_param (i i' : Matl.ParamId) : Upto (Matl.ParamId.ty.edit (Derives.val Matl.ParamId.codec i) (Derives.val Matl.ParamId.codec i'))
    (changed 8 i i') := changed_upto (by rintro rfl; rfl)

def paramEdit (x x' : Matl.ParamV16) : Option Nat := Matl.ParamV16.ty.edit (Matl.ParamV16.variantsVal x) (Matl.ParamV16.variantsVal x')

/-- Fields that are saved as they are. -/
local macro "same" : term => `(changed_upto (by intro h; first | (dsimp only at h; subst h; rfl) | (subst h; rfl)))

/-- Fields that are always the same. -/
theorem Upto.skip {p : Prop} [Decidable p] {n k : Nat} {o : Option Nat} (h : p) (ho : Upto o k) :
    Upto (Derive.plus (some (if p then 0 else n)) o) k := by
  rw [if_pos h, zero_plus]; exact ho

theorem blend_upto (v v' : BlendStateData) : Upto (paramEdit (.BlendState v.toV16) (.BlendState v'.toV16)) (editBlend v v') := by
  obtain ⟨a, b, c, d, e, f, g⟩ := v
  obtain ⟨a', b', c', d', e', f', g'⟩ := v'
  exact .plus (k' := 0) (.plus same <| .plus same <| .plus same <| .plus same <| .plus same <| .plus same <|
    .plus (k' := 0) same <| .skip rfl <| .skip rfl <|
    .skip rfl .zero) .zero

theorem bool_upto (v v' : Bool) : Upto (paramEdit (.Boolean (if v then 1 else 0)) (.Boolean (if v' then 1 else 0))) (changed 4 v v') :=
  .plus (k' := 0) same .zero

theorem float_upto (v v' : F32) : Upto (paramEdit (.Float v) (.Float v')) (changed 4 v v') := .plus (k' := 0) same .zero

theorem vector_upto (v v' : Vector4) : Upto (paramEdit (.Vector4 v) (.Vector4 v')) (editVector4 v v') := by
  obtain ⟨a, b, c, d⟩ := v
  obtain ⟨a', b', c', d'⟩ := v'
  exact .plus (k' := 0) (.plus same <| .plus same <| .plus same <| .plus (k' := 0) same .zero) .zero

theorem rasterizer_upto (v v' : RasterizerStateData) :
    Upto (paramEdit (.RasterizerState v.toV16) (.RasterizerState v'.toV16)) (editRasterizer v v') := by
  obtain ⟨a, b, c⟩ := v
  obtain ⟨a', b', c'⟩ := v'
  exact .plus (k' := 0) (.plus same <| .plus same <| .plus (k' := 0) same <| .skip rfl <|
    .skip rfl <| .skip rfl .zero) .zero

theorem color_upto (v v' : Color4f) : Upto (Color4f.ty.edit (Derives.val Color4f.codec v) (Derives.val Color4f.codec v')) (editColor v v') := by
  obtain ⟨a, b, c, d⟩ := v
  obtain ⟨a', b', c', d'⟩ := v'
  exact .plus same <| .plus same <| .plus same <| .plus (k' := 0) same .zero

theorem sampler_upto (v v' : SamplerData) : Upto (paramEdit (.Sampler v.toSampler) (.Sampler v'.toSampler)) (editSampler v v') := by
  obtain ⟨a, b, c, d, e, f, g, i⟩ := v
  obtain ⟨a', b', c', d', e', f', g', i'⟩ := v'
  exact .plus (k' := 0) (.plus same <| .plus same <| .plus same <| .plus same <| .plus same <| .plus same <| .plus (color_upto f f') <|
    .skip rfl <| .skip rfl <| .plus same <| .plus (k' := 0) same .zero) .zero

theorem text_upto (v v' : String) (k : Nat) (h : editText v v' = some k) : Upto (paramEdit (.String (ssbhText v)) (.String (ssbhText v'))) k := 
  .plus (k' := 0) ⟨k, le_rfl, h⟩ .zero

theorem uv_upto (v v' : Matl.UvTransform) : Upto (paramEdit (.UvTransform v) (.UvTransform v')) (editUv v v') := by
  obtain ⟨a, b, c, d, e⟩ := v
  obtain ⟨a', b', c', d', e'⟩ := v'
  exact .plus (k' := 0) (.plus same <| .plus same <| .plus same <| .plus same <| .plus (k' := 0) same .zero) .zero

theorem editAll_upto {f g : α → α → Option Nat} : ∀ {l l' : List α} {k : Nat}, (∀ a a' k, f a a' = some k → Upto (g a a') k) →
    editAll f l l' = some k → Upto (editAll g l l') k
  | [], [], _, _, h => by cases h; exact .zero
  | [], _ :: _, _, _, h => by cases h
  | _ :: _, [], _, _, h => by cases h
  | a :: l, a' :: l', _, hf, h => by
    obtain ⟨x, y, hx, hy, rfl⟩ := plus_parts h
    exact (hf _ _ _ hx).plus (editAll_upto hf hy)

theorem editAll_append {g : α → α → Option Nat} {b b' : List α} {m : Nat} (hb : Upto (editAll g b b') m) :
    ∀ {a a' : List α} {k : Nat}, Upto (editAll g a a') k → Upto (editAll g (a ++ b) (a' ++ b')) (k + m)
  | [], [], k, h => by obtain ⟨n, hn, e⟩ := hb; exact ⟨n, by omega, e⟩
  | [], _ :: _, _, ⟨_, _, h⟩ => by cases h
  | _ :: _, [], _, ⟨_, _, h⟩ => by cases h
  | a :: l, a' :: l', k, ⟨n, hn, h⟩ => by
    obtain ⟨x, y, hx, hy, rfl⟩ := plus_parts h
    obtain ⟨z, hz, e⟩ := editAll_append hb (a := l) (a' := l') ⟨y, le_rfl, hy⟩
    refine ⟨x + z, by omega, ?_⟩
    rw [List.cons_append, List.cons_append, editAll, hx, e]
    rfl

theorem attr_upto {f : α → α → Option Nat} (c : α → Matl.ParamV16) (hc : ∀ a a' k, f a a' = some k → Upto (paramEdit (c a) (c a')) k)
    (p p' : ParamData α) (k : Nat) (h : editParam f p p' = some k) : Upto (attrEdit (attrV16 c p) (attrV16 c p')) k := by
  obtain ⟨x, y, hx, hy, rfl⟩ := plus_parts h
  cases hx
  exact .plus (changed_param _ _) (.plus (k' := 0) (hc _ _ _ hy) .zero)

theorem attrs_upto {f : α → α → Option Nat} (c : α → Matl.ParamV16) (hc : ∀ a a' k, f a a' = some k → Upto (paramEdit (c a) (c a')) k)
    {l l' : List (ParamData α)} {k : Nat} (h : editAll (editParam f) l l' = some k) :
    Upto (editAll attrEdit (l.map (attrV16 c)) (l'.map (attrV16 c))) k := by
  rw [editAll_map]
  exact editAll_upto (attr_upto c hc) h

theorem of_some {g : α → α → Option Nat} {f : α → α → Nat} (h : ∀ a a', Upto (g a a') (f a a')) (a a' : α) (k : Nat)
    (hk : some (f a a') = some k) : Upto (g a a') k := by cases hk; exact h a a'

theorem entry_upto (e e' : MatlEntryData) (k : Nat) (h : editMaterial e e' = some k) : Upto (entryEdit e.toV16 e'.toV16) k := by
  obtain ⟨k1, _, h1, g1, rfl⟩ := plus_parts h
  obtain ⟨k2, _, h2, g2, rfl⟩ := plus_parts g1
  obtain ⟨k3, _, h3, g3, rfl⟩ := plus_parts g2
  obtain ⟨k4, _, h4, g4, rfl⟩ := plus_parts g3
  obtain ⟨k5, _, h5, g5, rfl⟩ := plus_parts g4
  obtain ⟨k6, _, h6, g6, rfl⟩ := plus_parts g5
  obtain ⟨k7, _, h7, g7, rfl⟩ := plus_parts g6
  obtain ⟨k8, _, h8, g8, rfl⟩ := plus_parts g7
  obtain ⟨k9, k10, h9, h10, rfl⟩ := plus_parts g8
  have ha : Upto (editAll attrEdit e.toV16.attributes e'.toV16.attributes) (k3 + k4 + k5 + k6 + k7 + k8 + k9 + k10) :=
    editAll_append (attrs_upto _ (of_some uv_upto) h10) <| editAll_append (attrs_upto _ text_upto h9) <|
    editAll_append (attrs_upto _ (of_some sampler_upto) h8) <| editAll_append (attrs_upto _ (of_some rasterizer_upto) h7) <|
    editAll_append (attrs_upto _ (of_some vector_upto) h6) <| editAll_append (attrs_upto _ (of_some float_upto) h5) <|
    editAll_append (attrs_upto _ (of_some bool_upto) h4) (attrs_upto _ (of_some blend_upto) h3)
  obtain ⟨n, hn, ha⟩ := ha
  refine ⟨k1 + (n + (k2 + 0)), by omega, ?_⟩
  have : entryEdit e.toV16 e'.toV16 = plus (editText e.material_label e'.material_label)
      (plus (editAll Matl.AttributeV16.ty.edit (e.toV16.attributes.map (Derives.val Matl.AttributeV16.codec))
        (e'.toV16.attributes.map (Derives.val Matl.AttributeV16.codec)))
      (plus (editText e.shader_label e'.shader_label) (some 0))) := rfl
  rw [this, editAll_map, h1, h2]
  exact congrArg (fun x => plus (some k1) (plus x (plus (some k2) (some 0)))) ha

theorem CloseResults.mono {k m : Nat} (hk : k ≤ m) : ∀ {r r' : Except WErr Bytes}, CloseResults k r r' → CloseResults m r r'
  | .ok _, .ok _, h => ⟨h.1, h.2.trans hk⟩
  | .error _, .error _, h => h
  | .ok _, .error _, h => h
  | .error _, .ok _, h => h

/-- C93 for materials: if the saved file changes at all, only in as many bytes as the numbers and characters that changed. -/
theorem C93_materials (d d' : MatlData) (k : Nat) (h : editMaterials d d' = some k) (b : Bytes) (hb : d.write = .ok b) :
    ∃ b', d'.write = .ok b' ∧ CloseBytes k b b' := by
  unfold editMaterials at h
  split at h
  · next hv =>
    unfold MatlData.write MatlData.toMatl at hb ⊢
    rw [← hv.1, ← hv.2]
    split_ifs at hb ⊢ with hv'
    · obtain ⟨n, hn, e⟩ : Upto (editAll entryEdit (d.entries.map fun e => e.toV16) (d'.entries.map fun e => e.toV16)) k := by
        rw [editAll_map]
        exact editAll_upto entry_upto h
      rw [← matlEdit_eq] at e
      have hc := (C93_small _ _ _ e).mono hn
      have hc : CloseResults k (writeAs (Matl.V16 ⟨d.entries.map fun e => e.toV16⟩)) (writeAs (Matl.V16 ⟨d'.entries.map fun e => e.toV16⟩)) := hc
      dsimp only at hb ⊢
      cases hw : writeAs (Matl.V16 ⟨d.entries.map fun e => e.toV16⟩) with
      | error e => rw [hw] at hb; cases hb
      | ok c =>
        rw [hw] at hb hc
        cases hb
        cases hw' : writeAs (Matl.V16 ⟨d'.entries.map fun e => e.toV16⟩) with
        | error e => rw [hw'] at hc; exact hc.elim
        | ok c' => rw [hw'] at hc; exact ⟨c', rfl, hc⟩
  · cases h

theorem editText_refl (s : String) : editText s s = some 0 := editBytes_refl _

theorem editParam_refl {f : α → α → Option Nat} (hf : ∀ a, f a a = some 0) (p : ParamData α) : editParam f p p = some 0 := by
  rw [editParam, hf, changed, if_pos rfl, zero_plus]

theorem editParam_data {f : α → α → Option Nat} (p : ParamData α) (x : α) : editParam f p { p with data := x } = f p.data x := by
  rw [editParam, changed, if_pos rfl, zero_plus]

theorem changed_self [DecidableEq α] (n : Nat) (a : α) : changed n a a = 0 := if_pos rfl

theorem changed_le [DecidableEq α] (n : Nat) (a a' : α) : changed n a a' ≤ n := by unfold changed; split <;> omega

theorem editVector4_self (v : Vector4) : some (editVector4 v v) = some 0 := by simp [editVector4, changed_self]

/-- Nothing but the vectors and textures has changed. -/
theorem editMaterial_set (e : MatlEntryData) (v : List (ParamData Vector4)) (t : List (ParamData String)) :
    editMaterial e { e with vectors := v, textures := t } =
      plus (editAll (editParam fun v v' => some (editVector4 v v')) e.vectors v) (editAll (editParam editText) e.textures t) := by
  simp only [editMaterial, editText_refl, zero_plus]
  rw [editAll_refl (editParam_refl fun a => by simp [editBlend, changed_self]), editAll_refl (editParam_refl fun a => by simp [changed_self]),
    editAll_refl (editParam_refl fun a => by simp [changed_self]),
    editAll_refl (editParam_refl fun a => by simp [editRasterizer, changed_self]),
    editAll_refl (editParam_refl fun a => by simp [editSampler, editColor, changed_self]),
    editAll_refl (editParam_refl fun a => by simp [editUv, changed_self])]
  simp only [zero_plus, plus_zero']

theorem editMaterial_refl (e : MatlEntryData) : editMaterial e e = some 0 := by
  rw [show editMaterial e e = _ from editMaterial_set e e.vectors e.textures, editAll_refl (editParam_refl editVector4_self),
    editAll_refl (editParam_refl editText_refl), zero_plus]

theorem editMaterials_set (d : MatlData) (i : Nat) (e e' : MatlEntryData) (he : d.entries[i]? = some e) :
    editMaterials d { d with entries := d.entries.set i e' } = editMaterial e e' := by
  rw [editMaterials, if_pos ⟨rfl, rfl⟩]
  exact editAll_set editMaterial_refl he e'

theorem CloseBytes.mono {k m : Nat} (hk : k ≤ m) {b b' : Bytes} (h : CloseBytes k b b') : CloseBytes m b b' := ⟨h.1, h.2.trans hk⟩

/-- Changing the value of one vector parameter changes at most 16 bytes of the file. -/
theorem C93_vector (d : MatlData) (i j : Nat) (e : MatlEntryData) (p : ParamData Vector4) (x : Vector4)
    (he : d.entries[i]? = some e) (hp : e.vectors[j]? = some p) (b : Bytes) (hb : d.write = .ok b) :
    ∃ b', { d with entries := d.entries.set i { e with vectors := e.vectors.set j { p with data := x } } }.write = .ok b' ∧
      CloseBytes 16 b b' := by
  have h : editMaterial e { e with vectors := e.vectors.set j { p with data := x } } = some (editVector4 p.data x) := by
    rw [show editMaterial e { e with vectors := _ } = _ from editMaterial_set e _ e.textures, editAll_refl (editParam_refl editText_refl),
      plus_zero', editAll_set (editParam_refl editVector4_self) hp, editParam_data]
  obtain ⟨b', h1, h2⟩ := C93_materials _ _ _ ((editMaterials_set d i e _ he).trans h) b hb
  refine ⟨b', h1, h2.mono ?_⟩
  have h1 := changed_le 4 p.data.x x.x
  have h2 := changed_le 4 p.data.y x.y
  have h3 := changed_le 4 p.data.z x.z
  have h4 := changed_le 4 p.data.w x.w
  unfold editVector4
  omega

/-- Replacing a texture by another one whose name has the same length changes only the characters of the name. -/
theorem C93_texture (d : MatlData) (i j : Nat) (e : MatlEntryData) (p : ParamData String) (x : String)
    (he : d.entries[i]? = some e) (hp : e.textures[j]? = some p) (h0 : 0 ∉ textBytes p.data) (h0' : 0 ∉ textBytes x)
    (hx : (textBytes x).length = (textBytes p.data).length) (b : Bytes) (hb : d.write = .ok b) :
    ∃ b', { d with entries := d.entries.set i { e with textures := e.textures.set j { p with data := x } } }.write = .ok b' ∧
      CloseBytes (differences (textBytes p.data) (textBytes x)).card b b' := by
  have hw : ∀ {l : Bytes}, 0 ∉ l → l.takeWhile (· ≠ 0) = l := fun {l} hl =>
    List.takeWhile_eq_self_iff.2 fun a ha => by simp only [ne_eq, decide_eq_true_eq]; rintro rfl; exact hl ha
  have h : editMaterial e { e with textures := e.textures.set j { p with data := x } } =
      some (differences (textBytes p.data) (textBytes x)).card := by
    rw [show editMaterial e { e with textures := _ } = _ from editMaterial_set e e.vectors _,
      editAll_refl (editParam_refl editVector4_self), zero_plus, editAll_set (editParam_refl editText_refl) hp, editParam_data,
      editText, hw h0, hw h0', editBytes, if_pos hx.symm]
  exact C93_materials _ _ _ ((editMaterials_set d i e _ he).trans h) b hb

theorem sampleMatl_write : ∃ b, sampleMatl.write = .ok b := isOk_iff.mp (by decide +kernel)

example : ∃ e p b, sampleMatl.entries[0]? = some e ∧ e.vectors[0]? = some p ∧ sampleMatl.write = .ok b :=
  let ⟨b, h⟩ := sampleMatl_write; ⟨_, _, b, rfl, rfl, h⟩

example : ∃ e p b, sampleMatl.entries[0]? = some e ∧ e.textures[0]? = some p ∧ 0 ∉ textBytes p.data ∧ 0 ∉ textBytes "/common/black" ∧
    (textBytes "/common/black").length = (textBytes p.data).length ∧
    (differences (textBytes p.data) (textBytes "/common/black")).card = 5 ∧ sampleMatl.write = .ok b :=
  let ⟨b, h⟩ := sampleMatl_write
  ⟨_, _, b, rfl, rfl, by decide +kernel, by decide +kernel, by decide +kernel, by decide +kernel, h⟩

end Verif.Props
