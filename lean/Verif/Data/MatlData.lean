import Verif.Formats.Matl
import Verif.Data.Text
/-!
# MatlData

Models /repo/ssbh_data/src/matl_data.rs. The `Default` values are not modelled.
-/

namespace Verif
namespace MatlData

/-- /repo/ssbh_data/src/matl_data.rs:113-118 -/
structure ParamData (α : Type) where
  param_id : Matl.ParamId
  data : α
  deriving DecidableEq, Repr

/-- /repo/ssbh_data/src/matl_data.rs:148-162 -/
structure SamplerData where
  wraps : Matl.WrapMode
  wrapt : Matl.WrapMode
  wrapr : Matl.WrapMode
  min_filter : Matl.MinFilter
  mag_filter : Matl.MagFilter
  border_color : Color4f
  lod_bias : F32
  max_anisotropy : Matl.MaxAnisotropy
  deriving DecidableEq, Repr

/-- /repo/ssbh_data/src/matl_data.rs:255-263 -/
structure BlendStateData where
  source_color : Matl.BlendFactor
  color_operation : Matl.BlendOperation
  destination_color : Matl.BlendFactor
  source_alpha : Matl.BlendFactor
  alpha_operation : Matl.BlendOperation
  destination_alpha : Matl.BlendFactor
  alpha_sample_to_coverage : Bool
  deriving DecidableEq, Repr

/-- /repo/ssbh_data/src/matl_data.rs:374-378 -/
structure RasterizerStateData where
  fill_mode : Matl.FillMode
  cull_mode : Matl.CullMode
  depth_bias : F32
  deriving DecidableEq, Repr

/-- /repo/ssbh_data/src/matl_data.rs:95-107 -/
structure MatlEntryData where
  material_label : String
  shader_label : String
  blend_states : List (ParamData BlendStateData)
  floats : List (ParamData F32)
  booleans : List (ParamData Bool)
  vectors : List (ParamData Vector4)
  rasterizer_states : List (ParamData RasterizerStateData)
  samplers : List (ParamData SamplerData)
  textures : List (ParamData String)
  uv_transforms : List (ParamData Matl.UvTransform)
  deriving DecidableEq, Repr

end MatlData

/-- /repo/ssbh_data/src/matl_data.rs:82-86 -/
structure MatlData where
  major_version : UInt16
  minor_version : UInt16
  entries : List MatlData.MatlEntryData
  deriving DecidableEq, Repr

namespace MatlData

/-- /repo/ssbh_data/src/matl_data.rs:197-214 -/
def SamplerData.ofSampler (v : Matl.Sampler) : SamplerData where
  wraps := v.wraps
  wrapt := v.wrapt
  wrapr := v.wrapr
  min_filter := v.min_filter
  mag_filter := v.mag_filter
  border_color := v.border_color
  lod_bias := v.lod_bias
  max_anisotropy := if v.texture_filtering_type = .AnisotropicFiltering then v.max_anisotropy else .One

/-- /repo/ssbh_data/src/matl_data.rs:228-248 -/
def SamplerData.toSampler (v : SamplerData) : Matl.Sampler where
  wraps := v.wraps
  wrapt := v.wrapt
  wrapr := v.wrapr
  min_filter := v.min_filter
  mag_filter := v.mag_filter
  border_color := v.border_color
  lod_bias := v.lod_bias
  max_anisotropy := v.max_anisotropy
  texture_filtering_type := if v.max_anisotropy = .One then .Default else .AnisotropicFiltering
  unk11 := 0
  unk12 := 2139095022

/-- /repo/ssbh_data/src/matl_data.rs:286-298 -/
def BlendStateData.ofV16 (v : Matl.BlendStateV16) : BlendStateData :=
  ⟨v.source_color, v.color_operation, v.destination_color, v.source_alpha, v.alpha_operation, v.destination_alpha,
    v.alpha_sample_to_coverage ≠ 0⟩

/-- /repo/ssbh_data/src/matl_data.rs:306-323 -/
def BlendStateData.toV16 (v : BlendStateData) : Matl.BlendStateV16 :=
  ⟨v.source_color, v.color_operation, v.destination_color, v.source_alpha, v.alpha_operation, v.destination_alpha,
    if v.alpha_sample_to_coverage then 1 else 0, 0, 0, 5⟩

/-- /repo/ssbh_data/src/matl_data.rs:331-343 -/
def BlendStateData.ofV15 (v : Matl.BlendStateV15) : BlendStateData :=
  ⟨v.source_color, v.color_operation, v.destination_color, v.source_alpha, v.alpha_operation, v.destination_alpha,
    false⟩

/-- /repo/ssbh_data/src/matl_data.rs:351-368 -/
def BlendStateData.toV15 (v : BlendStateData) : Matl.BlendStateV15 :=
  ⟨v.source_color, .Add, v.destination_color, .One, .Add, .Zero, 0, 0, 5, 0⟩

/-- /repo/ssbh_data/src/matl_data.rs:397-405 -/
def RasterizerStateData.ofV16 (v : Matl.RasterizerStateV16) : RasterizerStateData :=
  ⟨v.fill_mode, v.cull_mode, v.depth_bias⟩

/-- /repo/ssbh_data/src/matl_data.rs:413-426 -/
def RasterizerStateData.toV16 (v : RasterizerStateData) : Matl.RasterizerStateV16 :=
  ⟨v.fill_mode, v.cull_mode, v.depth_bias, 0, 0, 16777217⟩

/-- /repo/ssbh_data/src/matl_data.rs:434-442 -/
def RasterizerStateData.ofV15 (v : Matl.RasterizerStateV15) : RasterizerStateData := ⟨.Solid, v.cull_mode, 0⟩

/-- /repo/ssbh_data/src/matl_data.rs:450-456 -/
def RasterizerStateData.toV15 (v : RasterizerStateData) : Matl.RasterizerStateV15 := ⟨v.cull_mode⟩

/-- The macro of /repo/ssbh_data/src/matl_data.rs:459-469, and the two loops written out in 528-546. -/
def getV16 (f : Matl.ParamV16 → Option α) (attributes : List Matl.AttributeV16) : List (ParamData α) :=
  attributes.filterMap fun a => (a.param.bind f).map (ParamData.mk a.param_id)

/-- /repo/ssbh_data/src/matl_data.rs:519-552 -/
def MatlEntryData.ofV16 (e : Matl.MatlEntryV16) : MatlEntryData where
  material_label := toStringLossy e.material_label
  shader_label := toStringLossy e.shader_label
  vectors := getV16 (fun | .Vector4 v => some v | _ => none) e.attributes
  floats := getV16 (fun | .Float v => some v | _ => none) e.attributes
  booleans := getV16 (fun | .Boolean b => some (b != 0) | _ => none) e.attributes
  textures := getV16 (fun | .String s => some (toStringLossy s) | _ => none) e.attributes
  samplers := getV16 (fun | .Sampler s => some (.ofSampler s) | _ => none) e.attributes
  blend_states := getV16 (fun | .BlendState s => some (.ofV16 s) | _ => none) e.attributes
  rasterizer_states := getV16 (fun | .RasterizerState s => some (.ofV16 s) | _ => none) e.attributes
  uv_transforms := getV16 (fun | .UvTransform t => some t | _ => none) e.attributes

/-- `AttributeV16 { param_id: a.param_id, param: a.data.to_param() }` -/
def attrV16 (f : α → Matl.ParamV16) (a : ParamData α) : Matl.AttributeV16 := ⟨a.param_id, some (f a.data)⟩

/-- /repo/ssbh_data/src/matl_data.rs:554-598 with `to_param` from 682-772 -/
def MatlEntryData.toV16 (e : MatlEntryData) : Matl.MatlEntryV16 where
  material_label := ssbhText e.material_label
  attributes :=
    e.blend_states.map (attrV16 fun s => .BlendState s.toV16) ++
    e.booleans.map (attrV16 fun b => .Boolean (if b then 1 else 0)) ++
    e.floats.map (attrV16 .Float) ++
    e.vectors.map (attrV16 .Vector4) ++
    e.rasterizer_states.map (attrV16 fun s => .RasterizerState s.toV16) ++
    e.samplers.map (attrV16 fun s => .Sampler s.toSampler) ++
    e.textures.map (attrV16 fun s => .String (ssbhText s)) ++
    e.uv_transforms.map (attrV16 .UvTransform)
  shader_label := ssbhText e.shader_label

/-- The macro of /repo/ssbh_data/src/matl_data.rs:459-469 for the other version. -/
def getV15 (f : Matl.ParamV15 → Option α) (attributes : List Matl.AttributeV15) : List (ParamData α) :=
  attributes.filterMap fun a => (a.param.bind f).map (ParamData.mk a.param_id)

/-- /repo/ssbh_data/src/matl_data.rs:600-633 -/
def MatlEntryData.ofV15 (e : Matl.MatlEntryV15) : MatlEntryData where
  material_label := toStringLossy e.material_label
  shader_label := toStringLossy e.shader_label
  vectors := getV15 (fun | .Vector4 v => some v | _ => none) e.attributes
  floats := getV15 (fun | .Float v => some v | _ => none) e.attributes
  booleans := getV15 (fun | .Boolean b => some (b != 0) | _ => none) e.attributes
  textures := getV15 (fun | .String s => some (toStringLossy s) | _ => none) e.attributes
  samplers := getV15 (fun | .Sampler s => some (.ofSampler s) | _ => none) e.attributes
  blend_states := getV15 (fun | .BlendState s => some (.ofV15 s) | _ => none) e.attributes
  rasterizer_states := getV15 (fun | .RasterizerState s => some (.ofV15 s) | _ => none) e.attributes
  uv_transforms := getV15 (fun | .UvTransform t => some t | _ => none) e.attributes

def attrV15 (f : α → Matl.ParamV15) (a : ParamData α) : Matl.AttributeV15 := ⟨a.param_id, some (f a.data)⟩

/-- /repo/ssbh_data/src/matl_data.rs:635-679 with `to_param_v15` from 774-868. Not reachable from `MatlData`. -/
def MatlEntryData.toV15 (e : MatlEntryData) : Matl.MatlEntryV15 where
  material_label := ssbhText e.material_label
  attributes :=
    e.blend_states.map (attrV15 fun s => .BlendState s.toV15) ++
    e.rasterizer_states.map (attrV15 fun s => .RasterizerState s.toV15) ++
    e.textures.map (attrV15 fun s => .String (ssbhText s)) ++
    e.vectors.map (attrV15 .Vector4) ++
    e.samplers.map (attrV15 fun s => .Sampler s.toSampler) ++
    e.floats.map (attrV15 .Float) ++
    e.uv_transforms.map (attrV15 .UvTransform) ++
    e.booleans.map (attrV15 fun b => .Boolean (if b then 1 else 0))
  shader_label := ssbhText e.shader_label

/-- /repo/ssbh_data/src/matl_data.rs:57-68, without errors of the writer -/
inductive MatlErr where
  | unsupportedVersion (major minor : UInt16)
  deriving DecidableEq, Repr

/-- /repo/ssbh_data/src/matl_data.rs:479-493: never fails -/
def ofMatl (m : Matl) : MatlData :=
  let (major, minor) := Matl.format.version m
  match m with
  | .V15 m => ⟨major, minor, m.entries.map .ofV15⟩
  | .V16 m => ⟨major, minor, m.entries.map .ofV16⟩

/-- /repo/ssbh_data/src/matl_data.rs:503-517 -/
def toMatl (m : MatlData) : Except MatlErr Matl :=
  if m.major_version = 1 ∧ m.minor_version = 6 then .ok (.V16 ⟨m.entries.map (·.toV16)⟩)
  else .error (.unsupportedVersion m.major_version m.minor_version)

end MatlData
end Verif
