import Verif.Lib.File
import Verif.Formats.Vectors
/-!
# Matl

Types of /repo/ssbh_lib/src/formats/matl.rs.
Written by tools/gen_formats.py from the Rust definitions.
-/

namespace Verif
namespace Matl

/-- /repo/ssbh_lib/src/formats/matl.rs:147-516: the tags are 0 to 365. -/
abbrev ParamId := ReprEnum (List.range 366)
def ParamId.codec : Codec ParamId := reprEnum 8 (List.range 366)
instance : LawC ParamId.codec :=
  reprEnum_law (by decide) (by intro t ht; simp only [List.mem_range] at ht; omega)

/-- /repo/ssbh_lib/src/formats/matl.rs:571-576 -/
abbrev WrapMode := ReprEnum [0, 1, 2, 3]
def WrapMode.Repeat : WrapMode := ⟨0, by decide⟩
def WrapMode.ClampToEdge : WrapMode := ⟨1, by decide⟩
def WrapMode.MirroredRepeat : WrapMode := ⟨2, by decide⟩
def WrapMode.ClampToBorder : WrapMode := ⟨3, by decide⟩
def WrapMode.codec : Codec WrapMode := reprEnum 4 [0, 1, 2, 3]
instance : LawC WrapMode.codec := reprEnum_law (by decide) (by decide)

/-- /repo/ssbh_lib/src/formats/matl.rs:584-588 -/
abbrev MinFilter := ReprEnum [0, 1, 2]
def MinFilter.Nearest : MinFilter := ⟨0, by decide⟩
def MinFilter.LinearMipmapLinear : MinFilter := ⟨1, by decide⟩
def MinFilter.LinearMipmapLinear2 : MinFilter := ⟨2, by decide⟩
def MinFilter.codec : Codec MinFilter := reprEnum 4 [0, 1, 2]
instance : LawC MinFilter.codec := reprEnum_law (by decide) (by decide)

/-- /repo/ssbh_lib/src/formats/matl.rs:596-600 -/
abbrev MagFilter := ReprEnum [0, 1, 2]
def MagFilter.Nearest : MagFilter := ⟨0, by decide⟩
def MagFilter.Linear : MagFilter := ⟨1, by decide⟩
def MagFilter.Linear2 : MagFilter := ⟨2, by decide⟩
def MagFilter.codec : Codec MagFilter := reprEnum 4 [0, 1, 2]
instance : LawC MagFilter.codec := reprEnum_law (by decide) (by decide)

/-- /repo/ssbh_lib/src/formats/matl.rs:608-612 -/
abbrev FilteringType := ReprEnum [0, 1, 2]
def FilteringType.Default : FilteringType := ⟨0, by decide⟩
def FilteringType.Default2 : FilteringType := ⟨1, by decide⟩
def FilteringType.AnisotropicFiltering : FilteringType := ⟨2, by decide⟩
def FilteringType.codec : Codec FilteringType := reprEnum 4 [0, 1, 2]
instance : LawC FilteringType.codec := reprEnum_law (by decide) (by decide)

/-- /repo/ssbh_lib/src/formats/matl.rs:640-646 -/
abbrev MaxAnisotropy := ReprEnum [1, 2, 4, 8, 16]
def MaxAnisotropy.One : MaxAnisotropy := ⟨1, by decide⟩
def MaxAnisotropy.Two : MaxAnisotropy := ⟨2, by decide⟩
def MaxAnisotropy.Four : MaxAnisotropy := ⟨4, by decide⟩
def MaxAnisotropy.Eight : MaxAnisotropy := ⟨8, by decide⟩
def MaxAnisotropy.Sixteen : MaxAnisotropy := ⟨16, by decide⟩
def MaxAnisotropy.codec : Codec MaxAnisotropy := reprEnum 4 [1, 2, 4, 8, 16]
instance : LawC MaxAnisotropy.codec := reprEnum_law (by decide) (by decide)

/-- /repo/ssbh_lib/src/formats/matl.rs:617-629 -/
structure Sampler where
  wraps : Matl.WrapMode
  wrapt : Matl.WrapMode
  wrapr : Matl.WrapMode
  min_filter : Matl.MinFilter
  mag_filter : Matl.MagFilter
  texture_filtering_type : Matl.FilteringType
  border_color : Color4f
  unk11 : UInt32
  unk12 : UInt32
  lod_bias : F32
  max_anisotropy : Matl.MaxAnisotropy
  deriving DecidableEq, Repr

def Sampler.codec : Codec Sampler :=
  struct 4 (iso (pair Matl.WrapMode.codec (pair Matl.WrapMode.codec (pair Matl.WrapMode.codec (pair Matl.MinFilter.codec (pair Matl.MagFilter.codec (pair Matl.FilteringType.codec (pair Color4f.codec (pair u32 (pair u32 (pair f32 Matl.MaxAnisotropy.codec))))))))))
    (fun v => (v.wraps, v.wrapt, v.wrapr, v.min_filter, v.mag_filter, v.texture_filtering_type, v.border_color, v.unk11, v.unk12, v.lod_bias, v.max_anisotropy))
    (fun (wraps, wrapt, wrapr, min_filter, mag_filter, texture_filtering_type, border_color, unk11, unk12, lod_bias, max_anisotropy) => ⟨wraps, wrapt, wrapr, min_filter, mag_filter, texture_filtering_type, border_color, unk11, unk12, lod_bias, max_anisotropy⟩))

instance : LawC Sampler.codec := by
  unfold Sampler.codec; infer_instance

/-- /repo/ssbh_lib/src/formats/matl.rs:651-657 -/
structure UvTransform where
  scale_u : F32
  scale_v : F32
  rotation : F32
  translate_u : F32
  translate_v : F32
  deriving DecidableEq, Repr

def UvTransform.codec : Codec UvTransform :=
  struct 4 (iso (pair f32 (pair f32 (pair f32 (pair f32 f32))))
    (fun v => (v.scale_u, v.scale_v, v.rotation, v.translate_u, v.translate_v))
    (fun (scale_u, scale_v, rotation, translate_u, translate_v) => ⟨scale_u, scale_v, rotation, translate_u, translate_v⟩))

instance : LawC UvTransform.codec := by
  unfold UvTransform.codec; infer_instance

/-- /repo/ssbh_lib/src/formats/matl.rs:666-679 -/
abbrev BlendFactor := ReprEnum [0, 1, 2, 3, 4, 5, 6, 7, 8, 9, 10]
def BlendFactor.Zero : BlendFactor := ⟨0, by decide⟩
def BlendFactor.One : BlendFactor := ⟨1, by decide⟩
def BlendFactor.SourceAlpha : BlendFactor := ⟨2, by decide⟩
def BlendFactor.DestinationAlpha : BlendFactor := ⟨3, by decide⟩
def BlendFactor.SourceColor : BlendFactor := ⟨4, by decide⟩
def BlendFactor.DestinationColor : BlendFactor := ⟨5, by decide⟩
def BlendFactor.OneMinusSourceAlpha : BlendFactor := ⟨6, by decide⟩
def BlendFactor.OneMinusDestinationAlpha : BlendFactor := ⟨7, by decide⟩
def BlendFactor.OneMinusSourceColor : BlendFactor := ⟨8, by decide⟩
def BlendFactor.OneMinusDestinationColor : BlendFactor := ⟨9, by decide⟩
def BlendFactor.SourceAlphaSaturate : BlendFactor := ⟨10, by decide⟩
def BlendFactor.codec : Codec BlendFactor := reprEnum 4 [0, 1, 2, 3, 4, 5, 6, 7, 8, 9, 10]
instance : LawC BlendFactor.codec := reprEnum_law (by decide) (by decide)

/-- /repo/ssbh_lib/src/formats/matl.rs:688-694 -/
abbrev BlendOperation := ReprEnum [0, 1, 2, 3, 4]
def BlendOperation.Add : BlendOperation := ⟨0, by decide⟩
def BlendOperation.Subtract : BlendOperation := ⟨1, by decide⟩
def BlendOperation.ReverseSubtract : BlendOperation := ⟨2, by decide⟩
def BlendOperation.Minimum : BlendOperation := ⟨3, by decide⟩
def BlendOperation.Maximum : BlendOperation := ⟨4, by decide⟩
def BlendOperation.codec : Codec BlendOperation := reprEnum 4 [0, 1, 2, 3, 4]
instance : LawC BlendOperation.codec := reprEnum_law (by decide) (by decide)

/-- /repo/ssbh_lib/src/formats/matl.rs:700-711 -/
structure BlendStateV15 where
  source_color : Matl.BlendFactor
  color_operation : Matl.BlendOperation
  destination_color : Matl.BlendFactor
  source_alpha : Matl.BlendFactor
  alpha_operation : Matl.BlendOperation
  destination_alpha : Matl.BlendFactor
  unk6 : UInt64
  unk7 : UInt32
  unk8 : UInt32
  unk9 : UInt32
  deriving DecidableEq, Repr

def BlendStateV15.codec : Codec BlendStateV15 :=
  struct 8 (iso (pair Matl.BlendFactor.codec (pair Matl.BlendOperation.codec (pair Matl.BlendFactor.codec (pair Matl.BlendFactor.codec (pair Matl.BlendOperation.codec (pair Matl.BlendFactor.codec (pair u64 (pair u32 (pair u32 u32)))))))))
    (fun v => (v.source_color, v.color_operation, v.destination_color, v.source_alpha, v.alpha_operation, v.destination_alpha, v.unk6, v.unk7, v.unk8, v.unk9))
    (fun (source_color, color_operation, destination_color, source_alpha, alpha_operation, destination_alpha, unk6, unk7, unk8, unk9) => ⟨source_color, color_operation, destination_color, source_alpha, alpha_operation, destination_alpha, unk6, unk7, unk8, unk9⟩))

instance : LawC BlendStateV15.codec := by
  unfold BlendStateV15.codec; infer_instance

/-- /repo/ssbh_lib/src/formats/matl.rs:537-541 -/
abbrev CullMode := ReprEnum [0, 1, 2]
def CullMode.Back : CullMode := ⟨0, by decide⟩
def CullMode.Front : CullMode := ⟨1, by decide⟩
def CullMode.Disabled : CullMode := ⟨2, by decide⟩
def CullMode.codec : Codec CullMode := reprEnum 4 [0, 1, 2]
instance : LawC CullMode.codec := reprEnum_law (by decide) (by decide)

/-- /repo/ssbh_lib/src/formats/matl.rs:546-548 -/
structure RasterizerStateV15 where
  cull_mode : Matl.CullMode
  deriving DecidableEq, Repr

def RasterizerStateV15.codec : Codec RasterizerStateV15 :=
  struct 4 (iso Matl.CullMode.codec
    (fun v => (v.cull_mode))
    (fun cull_mode => ⟨cull_mode⟩))

instance : LawC RasterizerStateV15.codec := by
  unfold RasterizerStateV15.codec; infer_instance

/-- /repo/ssbh_lib/src/formats/matl.rs:100-116 -/
inductive ParamV15 where
  | Float (v : F32)
  | Boolean (v : UInt32)
  | Vector4 (v : Vector4)
  | Unk7 (v : Color4f)
  | String (v : SsbhString)
  | Sampler (v : Matl.Sampler)
  | UvTransform (v : Matl.UvTransform)
  | BlendState (v : Matl.BlendStateV15)
  | RasterizerState (v : Matl.RasterizerStateV15)
  deriving DecidableEq, Repr

def ParamV15.tagged : Tagged ParamV15 where
  tag
    | .Float _ => 1
    | .Boolean _ => 2
    | .Vector4 _ => 5
    | .Unk7 _ => 7
    | .String _ => 11
    | .Sampler _ => 14
    | .UvTransform _ => 16
    | .BlendState _ => 17
    | .RasterizerState _ => 18
  align := 8
  size
    | .Float v => f32.size v
    | .Boolean v => u32.size v
    | .Vector4 v => Vector4.codec.size v
    | .Unk7 v => Color4f.codec.size v
    | .String v => ssbhString.size v
    | .Sampler v => Matl.Sampler.codec.size v
    | .UvTransform v => Matl.UvTransform.codec.size v
    | .BlendState v => Matl.BlendStateV15.codec.size v
    | .RasterizerState v => Matl.RasterizerStateV15.codec.size v
  write v w :=
    match v with
    | .Float v => (struct 8 f32).write v w
    | .Boolean v => (struct 8 u32).write v w
    | .Vector4 v => (struct 8 Vector4.codec).write v w
    | .Unk7 v => (struct 8 Color4f.codec).write v w
    | .String v => (struct 8 ssbhString).write v w
    | .Sampler v => (struct 8 Matl.Sampler.codec).write v w
    | .UvTransform v => (struct 8 Matl.UvTransform.codec).write v w
    | .BlendState v => (struct 8 Matl.BlendStateV15.codec).write v w
    | .RasterizerState v => (struct 8 Matl.RasterizerStateV15.codec).write v w
  read tag b p :=
    if tag = 1 then mapRead .Float ((struct 8 f32).read b p)
    else if tag = 2 then mapRead .Boolean ((struct 8 u32).read b p)
    else if tag = 5 then mapRead .Vector4 ((struct 8 Vector4.codec).read b p)
    else if tag = 7 then mapRead .Unk7 ((struct 8 Color4f.codec).read b p)
    else if tag = 11 then mapRead .String ((struct 8 ssbhString).read b p)
    else if tag = 14 then mapRead .Sampler ((struct 8 Matl.Sampler.codec).read b p)
    else if tag = 16 then mapRead .UvTransform ((struct 8 Matl.UvTransform.codec).read b p)
    else if tag = 17 then mapRead .BlendState ((struct 8 Matl.BlendStateV15.codec).read b p)
    else if tag = 18 then mapRead .RasterizerState ((struct 8 Matl.RasterizerStateV15.codec).read b p)
    else .error .badTag

instance : LawT ParamV15.tagged where
  lawful := ⟨by intro v; cases v <;> simp [ParamV15.tagged], by decide, by
    intro v
    cases v with
    | Float v => exact variant_law (al := 8) (a := f32) (f := ParamV15.Float) (fun _ => rfl) (fun _ _ => rfl)
    | Boolean v => exact variant_law (al := 8) (a := u32) (f := ParamV15.Boolean) (fun _ => rfl) (fun _ _ => rfl)
    | Vector4 v => exact variant_law (al := 8) (a := Vector4.codec) (f := ParamV15.Vector4) (fun _ => rfl) (fun _ _ => rfl)
    | Unk7 v => exact variant_law (al := 8) (a := Color4f.codec) (f := ParamV15.Unk7) (fun _ => rfl) (fun _ _ => rfl)
    | String v => exact variant_law (al := 8) (a := ssbhString) (f := ParamV15.String) (fun _ => rfl) (fun _ _ => rfl)
    | Sampler v => exact variant_law (al := 8) (a := Matl.Sampler.codec) (f := ParamV15.Sampler) (fun _ => rfl) (fun _ _ => rfl)
    | UvTransform v => exact variant_law (al := 8) (a := Matl.UvTransform.codec) (f := ParamV15.UvTransform) (fun _ => rfl) (fun _ _ => rfl)
    | BlendState v => exact variant_law (al := 8) (a := Matl.BlendStateV15.codec) (f := ParamV15.BlendState) (fun _ => rfl) (fun _ _ => rfl)
    | RasterizerState v => exact variant_law (al := 8) (a := Matl.RasterizerStateV15.codec) (f := ParamV15.RasterizerState) (fun _ => rfl) (fun _ _ => rfl)⟩
  total := by
    intro v w e h
    cases v with
    | Float v => exact variant_total (al := 8) (a := f32) (f := ParamV15.Float) (fun _ => rfl) h
    | Boolean v => exact variant_total (al := 8) (a := u32) (f := ParamV15.Boolean) (fun _ => rfl) h
    | Vector4 v => exact variant_total (al := 8) (a := Vector4.codec) (f := ParamV15.Vector4) (fun _ => rfl) h
    | Unk7 v => exact variant_total (al := 8) (a := Color4f.codec) (f := ParamV15.Unk7) (fun _ => rfl) h
    | String v => exact variant_total (al := 8) (a := ssbhString) (f := ParamV15.String) (fun _ => rfl) h
    | Sampler v => exact variant_total (al := 8) (a := Matl.Sampler.codec) (f := ParamV15.Sampler) (fun _ => rfl) h
    | UvTransform v => exact variant_total (al := 8) (a := Matl.UvTransform.codec) (f := ParamV15.UvTransform) (fun _ => rfl) h
    | BlendState v => exact variant_total (al := 8) (a := Matl.BlendStateV15.codec) (f := ParamV15.BlendState) (fun _ => rfl) h
    | RasterizerState v => exact variant_total (al := 8) (a := Matl.RasterizerStateV15.codec) (f := ParamV15.RasterizerState) (fun _ => rfl) h

/-- /repo/ssbh_lib/src/formats/matl.rs:64-69 -/
structure AttributeV15 where
  param_id : Matl.ParamId
  param : Option Matl.ParamV15
  deriving DecidableEq, Repr

def AttributeV15.codec : Codec AttributeV15 :=
  struct 8 (iso (pair Matl.ParamId.codec (enum64 Matl.ParamV15.tagged))
    (fun v => (v.param_id, v.param))
    (fun (param_id, param) => ⟨param_id, param⟩))

instance : LawC AttributeV15.codec := by
  unfold AttributeV15.codec; infer_instance

/-- /repo/ssbh_lib/src/formats/matl.rs:45-57 -/
structure MatlEntryV15 where
  material_label : SsbhString
  attributes : List Matl.AttributeV15
  shader_label : SsbhString
  deriving DecidableEq, Repr

def MatlEntryV15.codec : Codec MatlEntryV15 :=
  struct 8 (iso (pair ssbhString (pair (array Matl.AttributeV15.codec) ssbhString))
    (fun v => (v.material_label, v.attributes, v.shader_label))
    (fun (material_label, attributes, shader_label) => ⟨material_label, attributes, shader_label⟩))

instance : LawC MatlEntryV15.codec := by
  unfold MatlEntryV15.codec; infer_instance

/-- /repo/ssbh_lib/src/formats/matl.rs:718-730 -/
structure BlendStateV16 where
  source_color : Matl.BlendFactor
  color_operation : Matl.BlendOperation
  destination_color : Matl.BlendFactor
  source_alpha : Matl.BlendFactor
  alpha_operation : Matl.BlendOperation
  destination_alpha : Matl.BlendFactor
  alpha_sample_to_coverage : UInt32
  unk8 : UInt32
  unk9 : UInt32
  unk10 : UInt32
  deriving DecidableEq, Repr

def BlendStateV16.codec : Codec BlendStateV16 :=
  struct 4 (padAfterWrite 8 (iso (pair Matl.BlendFactor.codec (pair Matl.BlendOperation.codec (pair Matl.BlendFactor.codec (pair Matl.BlendFactor.codec (pair Matl.BlendOperation.codec (pair Matl.BlendFactor.codec (pair u32 (pair u32 (pair u32 u32)))))))))
    (fun v => (v.source_color, v.color_operation, v.destination_color, v.source_alpha, v.alpha_operation, v.destination_alpha, v.alpha_sample_to_coverage, v.unk8, v.unk9, v.unk10))
    (fun (source_color, color_operation, destination_color, source_alpha, alpha_operation, destination_alpha, alpha_sample_to_coverage, unk8, unk9, unk10) => ⟨source_color, color_operation, destination_color, source_alpha, alpha_operation, destination_alpha, alpha_sample_to_coverage, unk8, unk9, unk10⟩)))

instance : LawW BlendStateV16.codec := by
  unfold BlendStateV16.codec; infer_instance

/-- /repo/ssbh_lib/src/formats/matl.rs:525-528 -/
abbrev FillMode := ReprEnum [0, 1]
def FillMode.Line : FillMode := ⟨0, by decide⟩
def FillMode.Solid : FillMode := ⟨1, by decide⟩
def FillMode.codec : Codec FillMode := reprEnum 4 [0, 1]
instance : LawC FillMode.codec := reprEnum_law (by decide) (by decide)

/-- /repo/ssbh_lib/src/formats/matl.rs:554-561 -/
structure RasterizerStateV16 where
  fill_mode : Matl.FillMode
  cull_mode : Matl.CullMode
  depth_bias : F32
  unk4 : F32
  unk5 : F32
  unk6 : UInt32
  deriving DecidableEq, Repr

def RasterizerStateV16.codec : Codec RasterizerStateV16 :=
  struct 4 (padAfterWrite 4 (iso (pair Matl.FillMode.codec (pair Matl.CullMode.codec (pair f32 (pair f32 (pair f32 u32)))))
    (fun v => (v.fill_mode, v.cull_mode, v.depth_bias, v.unk4, v.unk5, v.unk6))
    (fun (fill_mode, cull_mode, depth_bias, unk4, unk5, unk6) => ⟨fill_mode, cull_mode, depth_bias, unk4, unk5, unk6⟩)))

instance : LawW RasterizerStateV16.codec := by
  unfold RasterizerStateV16.codec; infer_instance

/-- /repo/ssbh_lib/src/formats/matl.rs:118-134 -/
inductive ParamV16 where
  | Float (v : F32)
  | Boolean (v : UInt32)
  | Vector4 (v : Vector4)
  | Unk7 (v : Color4f)
  | String (v : SsbhString)
  | Sampler (v : Matl.Sampler)
  | UvTransform (v : Matl.UvTransform)
  | BlendState (v : Matl.BlendStateV16)
  | RasterizerState (v : Matl.RasterizerStateV16)
  deriving DecidableEq, Repr

def ParamV16.tagged : Tagged ParamV16 where
  tag
    | .Float _ => 1
    | .Boolean _ => 2
    | .Vector4 _ => 5
    | .Unk7 _ => 7
    | .String _ => 11
    | .Sampler _ => 14
    | .UvTransform _ => 16
    | .BlendState _ => 17
    | .RasterizerState _ => 18
  align := 8
  size
    | .Float v => f32.size v
    | .Boolean v => u32.size v
    | .Vector4 v => Vector4.codec.size v
    | .Unk7 v => Color4f.codec.size v
    | .String v => ssbhString.size v
    | .Sampler v => Matl.Sampler.codec.size v
    | .UvTransform v => Matl.UvTransform.codec.size v
    | .BlendState v => Matl.BlendStateV16.codec.size v
    | .RasterizerState v => Matl.RasterizerStateV16.codec.size v
  write v w :=
    match v with
    | .Float v => (struct 8 f32).write v w
    | .Boolean v => (struct 8 u32).write v w
    | .Vector4 v => (struct 8 Vector4.codec).write v w
    | .Unk7 v => (struct 8 Color4f.codec).write v w
    | .String v => (struct 8 ssbhString).write v w
    | .Sampler v => (struct 8 Matl.Sampler.codec).write v w
    | .UvTransform v => (struct 8 Matl.UvTransform.codec).write v w
    | .BlendState v => (struct 8 Matl.BlendStateV16.codec).write v w
    | .RasterizerState v => (struct 8 Matl.RasterizerStateV16.codec).write v w
  read tag b p :=
    if tag = 1 then mapRead .Float ((struct 8 f32).read b p)
    else if tag = 2 then mapRead .Boolean ((struct 8 u32).read b p)
    else if tag = 5 then mapRead .Vector4 ((struct 8 Vector4.codec).read b p)
    else if tag = 7 then mapRead .Unk7 ((struct 8 Color4f.codec).read b p)
    else if tag = 11 then mapRead .String ((struct 8 ssbhString).read b p)
    else if tag = 14 then mapRead .Sampler ((struct 8 Matl.Sampler.codec).read b p)
    else if tag = 16 then mapRead .UvTransform ((struct 8 Matl.UvTransform.codec).read b p)
    else if tag = 17 then mapRead .BlendState ((struct 8 Matl.BlendStateV16.codec).read b p)
    else if tag = 18 then mapRead .RasterizerState ((struct 8 Matl.RasterizerStateV16.codec).read b p)
    else .error .badTag

instance : LawT ParamV16.tagged where
  lawful := ⟨by intro v; cases v <;> simp [ParamV16.tagged], by decide, by
    intro v
    cases v with
    | Float v => exact variant_law (al := 8) (a := f32) (f := ParamV16.Float) (fun _ => rfl) (fun _ _ => rfl)
    | Boolean v => exact variant_law (al := 8) (a := u32) (f := ParamV16.Boolean) (fun _ => rfl) (fun _ _ => rfl)
    | Vector4 v => exact variant_law (al := 8) (a := Vector4.codec) (f := ParamV16.Vector4) (fun _ => rfl) (fun _ _ => rfl)
    | Unk7 v => exact variant_law (al := 8) (a := Color4f.codec) (f := ParamV16.Unk7) (fun _ => rfl) (fun _ _ => rfl)
    | String v => exact variant_law (al := 8) (a := ssbhString) (f := ParamV16.String) (fun _ => rfl) (fun _ _ => rfl)
    | Sampler v => exact variant_law (al := 8) (a := Matl.Sampler.codec) (f := ParamV16.Sampler) (fun _ => rfl) (fun _ _ => rfl)
    | UvTransform v => exact variant_law (al := 8) (a := Matl.UvTransform.codec) (f := ParamV16.UvTransform) (fun _ => rfl) (fun _ _ => rfl)
    | BlendState v => exact variant_law (al := 8) (a := Matl.BlendStateV16.codec) (f := ParamV16.BlendState) (fun _ => rfl) (fun _ _ => rfl)
    | RasterizerState v => exact variant_law (al := 8) (a := Matl.RasterizerStateV16.codec) (f := ParamV16.RasterizerState) (fun _ => rfl) (fun _ _ => rfl)⟩
  total := by
    intro v w e h
    cases v with
    | Float v => exact variant_total (al := 8) (a := f32) (f := ParamV16.Float) (fun _ => rfl) h
    | Boolean v => exact variant_total (al := 8) (a := u32) (f := ParamV16.Boolean) (fun _ => rfl) h
    | Vector4 v => exact variant_total (al := 8) (a := Vector4.codec) (f := ParamV16.Vector4) (fun _ => rfl) h
    | Unk7 v => exact variant_total (al := 8) (a := Color4f.codec) (f := ParamV16.Unk7) (fun _ => rfl) h
    | String v => exact variant_total (al := 8) (a := ssbhString) (f := ParamV16.String) (fun _ => rfl) h
    | Sampler v => exact variant_total (al := 8) (a := Matl.Sampler.codec) (f := ParamV16.Sampler) (fun _ => rfl) h
    | UvTransform v => exact variant_total (al := 8) (a := Matl.UvTransform.codec) (f := ParamV16.UvTransform) (fun _ => rfl) h
    | BlendState v => exact variant_total (al := 8) (a := Matl.BlendStateV16.codec) (f := ParamV16.BlendState) (fun _ => rfl) h
    | RasterizerState v => exact variant_total (al := 8) (a := Matl.RasterizerStateV16.codec) (f := ParamV16.RasterizerState) (fun _ => rfl) h

/-- /repo/ssbh_lib/src/formats/matl.rs:93-98 -/
structure AttributeV16 where
  param_id : Matl.ParamId
  param : Option Matl.ParamV16
  deriving DecidableEq, Repr

def AttributeV16.codec : Codec AttributeV16 :=
  struct 8 (iso (pair Matl.ParamId.codec (enum64 Matl.ParamV16.tagged))
    (fun v => (v.param_id, v.param))
    (fun (param_id, param) => ⟨param_id, param⟩))

instance : LawC AttributeV16.codec := by
  unfold AttributeV16.codec; infer_instance

/-- /repo/ssbh_lib/src/formats/matl.rs:75-87 -/
structure MatlEntryV16 where
  material_label : SsbhString
  attributes : List Matl.AttributeV16
  shader_label : SsbhString
  deriving DecidableEq, Repr

def MatlEntryV16.codec : Codec MatlEntryV16 :=
  struct 8 (iso (pair ssbhString (pair (array Matl.AttributeV16.codec) ssbhString))
    (fun v => (v.material_label, v.attributes, v.shader_label))
    (fun (material_label, attributes, shader_label) => ⟨material_label, attributes, shader_label⟩))

instance : LawC MatlEntryV16.codec := by
  unfold MatlEntryV16.codec; infer_instance

/-- The fields of `Matl::V15`, /repo/ssbh_lib/src/formats/matl.rs:25-30, with the writer of the enum for this variant. -/
structure V15Data where
  entries : List Matl.MatlEntryV15
  deriving DecidableEq, Repr

def V15Data.codec : Codec V15Data :=
  struct 8 (iso ((array Matl.MatlEntryV15.codec))
    (fun v => (v.entries))
    (fun entries => ⟨entries⟩))

instance : LawC V15Data.codec := by
  unfold V15Data.codec; infer_instance

/-- The fields of `Matl::V16`, /repo/ssbh_lib/src/formats/matl.rs:25-30, with the writer of the enum for this variant. -/
structure V16Data where
  entries : List Matl.MatlEntryV16
  deriving DecidableEq, Repr

def V16Data.codec : Codec V16Data :=
  struct 8 (iso ((array Matl.MatlEntryV16.codec))
    (fun v => (v.entries))
    (fun entries => ⟨entries⟩))

instance : LawC V16Data.codec := by
  unfold V16Data.codec; infer_instance

end Matl

/-- /repo/ssbh_lib/src/formats/matl.rs:25-30 -/
inductive Matl where
  | V15 (v : Matl.V15Data)
  | V16 (v : Matl.V16Data)
  deriving DecidableEq, Repr

/-- /repo/ssbh_lib/src/formats/matl.rs:25-30, and the magic from /repo/ssbh_lib/src/lib.rs:300-309. -/
def Matl.format : Format Matl where
  magic := [0x4c, 0x54, 0x41, 0x4d] -- LTAM
  version
    | .V15 _ => (1, 5)
    | .V16 _ => (1, 6)
  size
    | .V15 v => Matl.V15Data.codec.size v
    | .V16 v => Matl.V16Data.codec.size v
  write v w :=
    match v with
    | .V15 v => Matl.V15Data.codec.write v w
    | .V16 v => Matl.V16Data.codec.write v w
  read major minor b p :=
    if major = 1 ∧ minor = 5 then mapRead .V15 (Matl.V15Data.codec.read b p)
    else if major = 1 ∧ minor = 6 then mapRead .V16 (Matl.V16Data.codec.read b p)
    else .error .badTag
  alignAfter
    | .V15 _ => 1
    | .V16 _ => 1

instance : LawFormat Matl.format where
  magic := rfl
  lawful := by
    intro v
    cases v with
    | V15 v => exact format_variant_law (al := 8) (c := Matl.V15Data.codec) (f := Matl.V15) rfl (fun _ => rfl) (fun _ _ => rfl)
    | V16 v => exact format_variant_law (al := 8) (c := Matl.V16Data.codec) (f := Matl.V16) rfl (fun _ => rfl) (fun _ _ => rfl)
  total := by
    intro v w e h
    cases v with
    | V15 v => exact format_variant_total (c := Matl.V15Data.codec) (f := Matl.V15) (fun _ => rfl) h
    | V16 v => exact format_variant_total (c := Matl.V16Data.codec) (f := Matl.V16) (fun _ => rfl) h
  align := by intro v; cases v <;> simp [Matl.format]
  version := by
    intro major minor b p v p' h
    simp only [Matl.format] at h
    split at h
    · rename_i hv; obtain ⟨x, rfl⟩ := mapRead_ok h; obtain ⟨rfl, rfl⟩ := hv; rfl
    split at h
    · rename_i hv; obtain ⟨x, rfl⟩ := mapRead_ok h; obtain ⟨rfl, rfl⟩ := hv; rfl
    cases h

end Verif
