import Verif.Lib.File
import Verif.Formats.Vectors
import Verif.Formats.Matl
/-!
# Nrpd

Types of /repo/ssbh_lib/src/formats/nrpd.rs.
Written by tools/gen_formats.py from the Rust definitions.
-/

namespace Verif
namespace Nrpd

/-- /repo/ssbh_lib/src/formats/nrpd.rs:74-87 -/
abbrev UnkFormat := ReprEnum [256, 308, 324, 528, 532, 582, 801, 836, 1024, 1025, 1029, 1088]
def UnkFormat.UnkFormat0 : UnkFormat := ⟨256, by decide⟩
def UnkFormat.UnkFormat1 : UnkFormat := ⟨308, by decide⟩
def UnkFormat.UnkFormat2 : UnkFormat := ⟨324, by decide⟩
def UnkFormat.UnkFormat3 : UnkFormat := ⟨528, by decide⟩
def UnkFormat.UnkFormat4 : UnkFormat := ⟨532, by decide⟩
def UnkFormat.UnkFormat5 : UnkFormat := ⟨582, by decide⟩
def UnkFormat.UnkFormat6 : UnkFormat := ⟨801, by decide⟩
def UnkFormat.UnkFormat7 : UnkFormat := ⟨836, by decide⟩
def UnkFormat.UnkFormat8 : UnkFormat := ⟨1024, by decide⟩
def UnkFormat.UnkFormat9 : UnkFormat := ⟨1025, by decide⟩
def UnkFormat.UnkFormat10 : UnkFormat := ⟨1029, by decide⟩
def UnkFormat.UnkFormat11 : UnkFormat := ⟨1088, by decide⟩
def UnkFormat.codec : Codec UnkFormat := reprEnum 8 [256, 308, 324, 528, 532, 582, 801, 836, 1024, 1025, 1029, 1088]
instance : LawC UnkFormat.codec := reprEnum_law (by decide) (by decide)

/-- /repo/ssbh_lib/src/formats/nrpd.rs:92-99 -/
structure Framebuffer0 where
  name : SsbhString
  width : UInt32
  height : UInt32
  unk1 : Nrpd.UnkFormat
  unk2 : UInt32
  unk3 : UInt32
  deriving DecidableEq, Repr

def Framebuffer0.codec : Codec Framebuffer0 :=
  struct 8 (iso (pair ssbhString (pair u32 (pair u32 (pair Nrpd.UnkFormat.codec (pair u32 u32)))))
    (fun v => (v.name, v.width, v.height, v.unk1, v.unk2, v.unk3))
    (fun (name, width, height, unk1, unk2, unk3) => ⟨name, width, height, unk1, unk2, unk3⟩))

instance : LawC Framebuffer0.codec := by
  unfold Framebuffer0.codec; infer_instance

/-- /repo/ssbh_lib/src/formats/nrpd.rs:104-111 -/
structure Framebuffer1 where
  name : SsbhString
  width : UInt32
  height : UInt32
  unk1 : UInt64
  unk2 : UInt32
  unk3 : UInt32
  deriving DecidableEq, Repr

def Framebuffer1.codec : Codec Framebuffer1 :=
  struct 8 (iso (pair ssbhString (pair u32 (pair u32 (pair u64 (pair u32 u32)))))
    (fun v => (v.name, v.width, v.height, v.unk1, v.unk2, v.unk3))
    (fun (name, width, height, unk1, unk2, unk3) => ⟨name, width, height, unk1, unk2, unk3⟩))

instance : LawC Framebuffer1.codec := by
  unfold Framebuffer1.codec; infer_instance

/-- /repo/ssbh_lib/src/formats/nrpd.rs:116-121 -/
structure UniformBuffer where
  name : SsbhString
  unk1 : UInt32
  unk2 : UInt32
  unk3 : UInt64
  deriving DecidableEq, Repr

def UniformBuffer.codec : Codec UniformBuffer :=
  struct 8 (iso (pair ssbhString (pair u32 (pair u32 u64)))
    (fun v => (v.name, v.unk1, v.unk2, v.unk3))
    (fun (name, unk1, unk2, unk3) => ⟨name, unk1, unk2, unk3⟩))

instance : LawC UniformBuffer.codec := by
  unfold UniformBuffer.codec; infer_instance

/-- /repo/ssbh_lib/src/formats/nrpd.rs:126-134 -/
structure Framebuffer3 where
  name : SsbhString
  width : UInt32
  height : UInt32
  unk1 : UInt32
  unk2 : UInt32
  unk3 : UInt32
  unk4 : UInt32
  deriving DecidableEq, Repr

def Framebuffer3.codec : Codec Framebuffer3 :=
  struct 8 (iso (pair ssbhString (pair u32 (pair u32 (pair u32 (pair u32 (pair u32 u32))))))
    (fun v => (v.name, v.width, v.height, v.unk1, v.unk2, v.unk3, v.unk4))
    (fun (name, width, height, unk1, unk2, unk3, unk4) => ⟨name, width, height, unk1, unk2, unk3, unk4⟩))

instance : LawC Framebuffer3.codec := by
  unfold Framebuffer3.codec; infer_instance

/-- /repo/ssbh_lib/src/formats/nrpd.rs:139-144 -/
structure Framebuffer4 where
  name : SsbhString
  width : UInt32
  height : UInt32
  unk3 : UInt64
  deriving DecidableEq, Repr

def Framebuffer4.codec : Codec Framebuffer4 :=
  struct 8 (iso (pair ssbhString (pair u32 (pair u32 u64)))
    (fun v => (v.name, v.width, v.height, v.unk3))
    (fun (name, width, height, unk3) => ⟨name, width, height, unk3⟩))

instance : LawC Framebuffer4.codec := by
  unfold Framebuffer4.codec; infer_instance

/-- /repo/ssbh_lib/src/formats/nrpd.rs:57-64 -/
inductive FrameBuffer where
  | Framebuffer0 (v : Nrpd.Framebuffer0)
  | Framebuffer1 (v : Nrpd.Framebuffer1)
  | UniformBuffer (v : Nrpd.UniformBuffer)
  | Framebuffer3 (v : Nrpd.Framebuffer3)
  | Framebuffer4 (v : Nrpd.Framebuffer4)
  deriving DecidableEq, Repr

def FrameBuffer.tagged : Tagged FrameBuffer where
  tag
    | .Framebuffer0 _ => 0
    | .Framebuffer1 _ => 1
    | .UniformBuffer _ => 2
    | .Framebuffer3 _ => 3
    | .Framebuffer4 _ => 4
  align := 8
  size
    | .Framebuffer0 v => Nrpd.Framebuffer0.codec.size v
    | .Framebuffer1 v => Nrpd.Framebuffer1.codec.size v
    | .UniformBuffer v => Nrpd.UniformBuffer.codec.size v
    | .Framebuffer3 v => Nrpd.Framebuffer3.codec.size v
    | .Framebuffer4 v => Nrpd.Framebuffer4.codec.size v
  write v w :=
    match v with
    | .Framebuffer0 v => (struct 8 Nrpd.Framebuffer0.codec).write v w
    | .Framebuffer1 v => (struct 8 Nrpd.Framebuffer1.codec).write v w
    | .UniformBuffer v => (struct 8 Nrpd.UniformBuffer.codec).write v w
    | .Framebuffer3 v => (struct 8 Nrpd.Framebuffer3.codec).write v w
    | .Framebuffer4 v => (struct 8 Nrpd.Framebuffer4.codec).write v w
  read tag b p :=
    if tag = 0 then mapRead .Framebuffer0 ((struct 8 Nrpd.Framebuffer0.codec).read b p)
    else if tag = 1 then mapRead .Framebuffer1 ((struct 8 Nrpd.Framebuffer1.codec).read b p)
    else if tag = 2 then mapRead .UniformBuffer ((struct 8 Nrpd.UniformBuffer.codec).read b p)
    else if tag = 3 then mapRead .Framebuffer3 ((struct 8 Nrpd.Framebuffer3.codec).read b p)
    else if tag = 4 then mapRead .Framebuffer4 ((struct 8 Nrpd.Framebuffer4.codec).read b p)
    else .error .badTag

instance : LawT FrameBuffer.tagged where
  lawful := ⟨by intro v; cases v <;> simp [FrameBuffer.tagged], by decide, by
    intro v
    cases v with
    | Framebuffer0 v => exact variant_law (al := 8) (a := Nrpd.Framebuffer0.codec) (f := FrameBuffer.Framebuffer0) (fun _ => rfl) (fun _ _ => rfl)
    | Framebuffer1 v => exact variant_law (al := 8) (a := Nrpd.Framebuffer1.codec) (f := FrameBuffer.Framebuffer1) (fun _ => rfl) (fun _ _ => rfl)
    | UniformBuffer v => exact variant_law (al := 8) (a := Nrpd.UniformBuffer.codec) (f := FrameBuffer.UniformBuffer) (fun _ => rfl) (fun _ _ => rfl)
    | Framebuffer3 v => exact variant_law (al := 8) (a := Nrpd.Framebuffer3.codec) (f := FrameBuffer.Framebuffer3) (fun _ => rfl) (fun _ _ => rfl)
    | Framebuffer4 v => exact variant_law (al := 8) (a := Nrpd.Framebuffer4.codec) (f := FrameBuffer.Framebuffer4) (fun _ => rfl) (fun _ _ => rfl)⟩
  total := by
    intro v w e h
    cases v with
    | Framebuffer0 v => exact variant_total (al := 8) (a := Nrpd.Framebuffer0.codec) (f := FrameBuffer.Framebuffer0) (fun _ => rfl) h
    | Framebuffer1 v => exact variant_total (al := 8) (a := Nrpd.Framebuffer1.codec) (f := FrameBuffer.Framebuffer1) (fun _ => rfl) h
    | UniformBuffer v => exact variant_total (al := 8) (a := Nrpd.UniformBuffer.codec) (f := FrameBuffer.UniformBuffer) (fun _ => rfl) h
    | Framebuffer3 v => exact variant_total (al := 8) (a := Nrpd.Framebuffer3.codec) (f := FrameBuffer.Framebuffer3) (fun _ => rfl) h
    | Framebuffer4 v => exact variant_total (al := 8) (a := Nrpd.Framebuffer4.codec) (f := FrameBuffer.Framebuffer4) (fun _ => rfl) h

/-- /repo/ssbh_lib/src/formats/nrpd.rs:149-153 -/
structure NrpdSampler where
  name : SsbhString
  data : Matl.Sampler
  unk13 : UInt64
  deriving DecidableEq, Repr

def NrpdSampler.codec : Codec NrpdSampler :=
  struct 8 (iso (pair ssbhString (pair Matl.Sampler.codec u64))
    (fun v => (v.name, v.data, v.unk13))
    (fun (name, data, unk13) => ⟨name, data, unk13⟩))

instance : LawC NrpdSampler.codec := by
  unfold NrpdSampler.codec; infer_instance

/-- /repo/ssbh_lib/src/formats/nrpd.rs:158-167 -/
structure NrpdRasterizerState where
  name : SsbhString
  fill_mode : Matl.FillMode
  cull_mode : Matl.CullMode
  depth_bias : F32
  unk4 : F32
  unk5 : F32
  unk6 : UInt32
  deriving DecidableEq, Repr

def NrpdRasterizerState.codec : Codec NrpdRasterizerState :=
  struct 8 (iso (pair ssbhString (pair Matl.FillMode.codec (pair Matl.CullMode.codec (pair f32 (pair f32 (pair f32 u32))))))
    (fun v => (v.name, v.fill_mode, v.cull_mode, v.depth_bias, v.unk4, v.unk5, v.unk6))
    (fun (name, fill_mode, cull_mode, depth_bias, unk4, unk5, unk6) => ⟨name, fill_mode, cull_mode, depth_bias, unk4, unk5, unk6⟩))

instance : LawC NrpdRasterizerState.codec := by
  unfold NrpdRasterizerState.codec; infer_instance

/-- /repo/ssbh_lib/src/formats/nrpd.rs:192-204 -/
structure DepthState where
  name : SsbhString
  unk2 : UInt32
  unk3 : UInt32
  unk4 : UInt32
  unk5 : UInt32
  unk6 : UInt32
  unk7 : UInt32
  unk8 : UInt64
  unk9 : UInt64
  unk10 : UInt64
  unk11 : UInt64
  deriving DecidableEq, Repr

def DepthState.codec : Codec DepthState :=
  struct 8 (iso (pair ssbhString (pair u32 (pair u32 (pair u32 (pair u32 (pair u32 (pair u32 (pair u64 (pair u64 (pair u64 u64))))))))))
    (fun v => (v.name, v.unk2, v.unk3, v.unk4, v.unk5, v.unk6, v.unk7, v.unk8, v.unk9, v.unk10, v.unk11))
    (fun (name, unk2, unk3, unk4, unk5, unk6, unk7, unk8, unk9, unk10, unk11) => ⟨name, unk2, unk3, unk4, unk5, unk6, unk7, unk8, unk9, unk10, unk11⟩))

instance : LawC DepthState.codec := by
  unfold DepthState.codec; infer_instance

/-- /repo/ssbh_lib/src/formats/nrpd.rs:172-186 -/
structure NrpdBlendState where
  name : SsbhString
  source_color : Matl.BlendFactor
  unk2 : UInt32
  destination_color : Matl.BlendFactor
  unk4 : UInt32
  unk5 : UInt32
  unk6 : UInt32
  alpha_sample_to_coverage : UInt32
  unk8 : UInt32
  unk9 : UInt32
  unk10 : UInt32
  deriving DecidableEq, Repr

def NrpdBlendState.codec : Codec NrpdBlendState :=
  struct 8 (iso (pair ssbhString (pair Matl.BlendFactor.codec (pair u32 (pair Matl.BlendFactor.codec (pair u32 (pair u32 (pair u32 (pair u32 (pair u32 (pair u32 u32))))))))))
    (fun v => (v.name, v.source_color, v.unk2, v.destination_color, v.unk4, v.unk5, v.unk6, v.alpha_sample_to_coverage, v.unk8, v.unk9, v.unk10))
    (fun (name, source_color, unk2, destination_color, unk4, unk5, unk6, alpha_sample_to_coverage, unk8, unk9, unk10) => ⟨name, source_color, unk2, destination_color, unk4, unk5, unk6, alpha_sample_to_coverage, unk8, unk9, unk10⟩))

instance : LawC NrpdBlendState.codec := by
  unfold NrpdBlendState.codec; infer_instance

/-- /repo/ssbh_lib/src/formats/nrpd.rs:206-212 -/
inductive State where
  | Sampler (v : Nrpd.NrpdSampler)
  | RasterizerState (v : Nrpd.NrpdRasterizerState)
  | DepthState (v : Nrpd.DepthState)
  | BlendState (v : Nrpd.NrpdBlendState)
  deriving DecidableEq, Repr

def State.tagged : Tagged State where
  tag
    | .Sampler _ => 0
    | .RasterizerState _ => 1
    | .DepthState _ => 2
    | .BlendState _ => 3
  align := 8
  size
    | .Sampler v => Nrpd.NrpdSampler.codec.size v
    | .RasterizerState v => Nrpd.NrpdRasterizerState.codec.size v
    | .DepthState v => Nrpd.DepthState.codec.size v
    | .BlendState v => Nrpd.NrpdBlendState.codec.size v
  write v w :=
    match v with
    | .Sampler v => (struct 8 Nrpd.NrpdSampler.codec).write v w
    | .RasterizerState v => (struct 8 Nrpd.NrpdRasterizerState.codec).write v w
    | .DepthState v => (struct 8 Nrpd.DepthState.codec).write v w
    | .BlendState v => (struct 8 Nrpd.NrpdBlendState.codec).write v w
  read tag b p :=
    if tag = 0 then mapRead .Sampler ((struct 8 Nrpd.NrpdSampler.codec).read b p)
    else if tag = 1 then mapRead .RasterizerState ((struct 8 Nrpd.NrpdRasterizerState.codec).read b p)
    else if tag = 2 then mapRead .DepthState ((struct 8 Nrpd.DepthState.codec).read b p)
    else if tag = 3 then mapRead .BlendState ((struct 8 Nrpd.NrpdBlendState.codec).read b p)
    else .error .badTag

instance : LawT State.tagged where
  lawful := ⟨by intro v; cases v <;> simp [State.tagged], by decide, by
    intro v
    cases v with
    | Sampler v => exact variant_law (al := 8) (a := Nrpd.NrpdSampler.codec) (f := State.Sampler) (fun _ => rfl) (fun _ _ => rfl)
    | RasterizerState v => exact variant_law (al := 8) (a := Nrpd.NrpdRasterizerState.codec) (f := State.RasterizerState) (fun _ => rfl) (fun _ _ => rfl)
    | DepthState v => exact variant_law (al := 8) (a := Nrpd.DepthState.codec) (f := State.DepthState) (fun _ => rfl) (fun _ _ => rfl)
    | BlendState v => exact variant_law (al := 8) (a := Nrpd.NrpdBlendState.codec) (f := State.BlendState) (fun _ => rfl) (fun _ _ => rfl)⟩
  total := by
    intro v w e h
    cases v with
    | Sampler v => exact variant_total (al := 8) (a := Nrpd.NrpdSampler.codec) (f := State.Sampler) (fun _ => rfl) h
    | RasterizerState v => exact variant_total (al := 8) (a := Nrpd.NrpdRasterizerState.codec) (f := State.RasterizerState) (fun _ => rfl) h
    | DepthState v => exact variant_total (al := 8) (a := Nrpd.DepthState.codec) (f := State.DepthState) (fun _ => rfl) h
    | BlendState v => exact variant_total (al := 8) (a := Nrpd.NrpdBlendState.codec) (f := State.BlendState) (fun _ => rfl) h

/-- /repo/ssbh_lib/src/formats/nrpd.rs:237-241 -/
structure RenderPassData0 where
  unk1 : SsbhString
  unk2 : SsbhString
  unk3 : UInt64
  deriving DecidableEq, Repr

def RenderPassData0.codec : Codec RenderPassData0 :=
  struct 8 (iso (pair ssbhString (pair ssbhString u64))
    (fun v => (v.unk1, v.unk2, v.unk3))
    (fun (unk1, unk2, unk3) => ⟨unk1, unk2, unk3⟩))

instance : LawC RenderPassData0.codec := by
  unfold RenderPassData0.codec; infer_instance

/-- /repo/ssbh_lib/src/formats/nrpd.rs:246-249 -/
structure RenderPassData1 where
  unk1 : SsbhString
  unk2 : SsbhString
  deriving DecidableEq, Repr

def RenderPassData1.codec : Codec RenderPassData1 :=
  struct 8 (iso (pair ssbhString ssbhString)
    (fun v => (v.unk1, v.unk2))
    (fun (unk1, unk2) => ⟨unk1, unk2⟩))

instance : LawC RenderPassData1.codec := by
  unfold RenderPassData1.codec; infer_instance

/-- /repo/ssbh_lib/src/formats/nrpd.rs:254-262 -/
structure RenderPassData2 where
  unk1 : SsbhString
  unk2 : SsbhString
  unk3 : Option UInt64
  unk4 : UInt64
  unk5 : Option UInt64
  unk6 : UInt64
  deriving DecidableEq, Repr

def RenderPassData2.codec : Codec RenderPassData2 :=
  struct 8 (iso (pair ssbhString (pair ssbhString (pair (relPtr u64) (pair u64 (pair (relPtr u64) u64)))))
    (fun v => (v.unk1, v.unk2, v.unk3, v.unk4, v.unk5, v.unk6))
    (fun (unk1, unk2, unk3, unk4, unk5, unk6) => ⟨unk1, unk2, unk3, unk4, unk5, unk6⟩))

instance : LawC RenderPassData2.codec := by
  unfold RenderPassData2.codec; infer_instance

/-- /repo/ssbh_lib/src/formats/nrpd.rs:299-302 -/
structure Unk8Data where
  unk1 : UInt32
  unk2 : UInt32
  deriving DecidableEq, Repr

def Unk8Data.codec : Codec Unk8Data :=
  struct 4 (iso (pair u32 u32)
    (fun v => (v.unk1, v.unk2))
    (fun (unk1, unk2) => ⟨unk1, unk2⟩))

instance : LawC Unk8Data.codec := by
  unfold Unk8Data.codec; infer_instance

/-- /repo/ssbh_lib/src/formats/nrpd.rs:267-274 -/
structure RenderPassData3 where
  unk1 : SsbhString
  unk2 : SsbhString
  unk3 : Option Nrpd.Unk8Data
  unk4 : UInt64
  unk5 : Option Nrpd.Unk8Data
  unk6 : UInt64
  deriving DecidableEq, Repr

def RenderPassData3.codec : Codec RenderPassData3 :=
  struct 8 (iso (pair ssbhString (pair ssbhString (pair (relPtr Nrpd.Unk8Data.codec) (pair u64 (pair (relPtr Nrpd.Unk8Data.codec) u64)))))
    (fun v => (v.unk1, v.unk2, v.unk3, v.unk4, v.unk5, v.unk6))
    (fun (unk1, unk2, unk3, unk4, unk5, unk6) => ⟨unk1, unk2, unk3, unk4, unk5, unk6⟩))

instance : LawC RenderPassData3.codec := by
  unfold RenderPassData3.codec; infer_instance

/-- /repo/ssbh_lib/src/formats/nrpd.rs:279-286 -/
structure RenderPassData8 where
  unk1 : SsbhString
  unk2 : SsbhString
  unk3 : Option UInt64
  unk4 : UInt64
  unk5 : Option UInt64
  unk6 : UInt64
  deriving DecidableEq, Repr

def RenderPassData8.codec : Codec RenderPassData8 :=
  struct 8 (iso (pair ssbhString (pair ssbhString (pair (relPtr u64) (pair u64 (pair (relPtr u64) u64)))))
    (fun v => (v.unk1, v.unk2, v.unk3, v.unk4, v.unk5, v.unk6))
    (fun (unk1, unk2, unk3, unk4, unk5, unk6) => ⟨unk1, unk2, unk3, unk4, unk5, unk6⟩))

instance : LawC RenderPassData8.codec := by
  unfold RenderPassData8.codec; infer_instance

/-- /repo/ssbh_lib/src/formats/nrpd.rs:307-311 -/
structure ColorClear where
  name : SsbhString
  color : Color4f
  unk1 : UInt64
  deriving DecidableEq, Repr

def ColorClear.codec : Codec ColorClear :=
  struct 8 (iso (pair ssbhString (pair Color4f.codec u64))
    (fun v => (v.name, v.color, v.unk1))
    (fun (name, color, unk1) => ⟨name, color, unk1⟩))

instance : LawC ColorClear.codec := by
  unfold ColorClear.codec; infer_instance

/-- /repo/ssbh_lib/src/formats/nrpd.rs:316-320 -/
structure DepthStencilClear where
  name : SsbhString
  depth : F32
  stencil : UInt32
  deriving DecidableEq, Repr

def DepthStencilClear.codec : Codec DepthStencilClear :=
  struct 8 (iso (pair ssbhString (pair f32 u32))
    (fun v => (v.name, v.depth, v.stencil))
    (fun (name, depth, stencil) => ⟨name, depth, stencil⟩))

instance : LawC DepthStencilClear.codec := by
  unfold DepthStencilClear.codec; infer_instance

/-- /repo/ssbh_lib/src/formats/nrpd.rs:325-333 -/
structure Viewport where
  name : SsbhString
  unk2 : UInt64
  width : F32
  height : F32
  unk_min : F32
  unk_max : F32
  unk4 : UInt64
  deriving DecidableEq, Repr

def Viewport.codec : Codec Viewport :=
  struct 8 (iso (pair ssbhString (pair u64 (pair f32 (pair f32 (pair f32 (pair f32 u64))))))
    (fun v => (v.name, v.unk2, v.width, v.height, v.unk_min, v.unk_max, v.unk4))
    (fun (name, unk2, width, height, unk_min, unk_max, unk4) => ⟨name, unk2, width, height, unk_min, unk_max, unk4⟩))

instance : LawC Viewport.codec := by
  unfold Viewport.codec; infer_instance

/-- /repo/ssbh_lib/src/formats/nrpd.rs:338-346 -/
structure RenderPassData13 where
  unk1 : SsbhString
  unk2 : SsbhString
  unk3 : Option UInt64
  unk4 : UInt64
  unk5 : Option UInt64
  unk6 : UInt64
  deriving DecidableEq, Repr

def RenderPassData13.codec : Codec RenderPassData13 :=
  struct 8 (iso (pair ssbhString (pair ssbhString (pair (relPtr u64) (pair u64 (pair (relPtr u64) u64)))))
    (fun v => (v.unk1, v.unk2, v.unk3, v.unk4, v.unk5, v.unk6))
    (fun (unk1, unk2, unk3, unk4, unk5, unk6) => ⟨unk1, unk2, unk3, unk4, unk5, unk6⟩))

instance : LawC RenderPassData13.codec := by
  unfold RenderPassData13.codec; infer_instance

/-- /repo/ssbh_lib/src/formats/nrpd.rs:382-385 -/
structure StringPair where
  item1 : SsbhString
  item2 : SsbhString
  deriving DecidableEq, Repr

def StringPair.codec : Codec StringPair :=
  struct 8 (iso (pair ssbhString ssbhString)
    (fun v => (v.item1, v.item2))
    (fun (item1, item2) => ⟨item1, item2⟩))

instance : LawC StringPair.codec := by
  unfold StringPair.codec; infer_instance

/-- /repo/ssbh_lib/src/formats/nrpd.rs:291-294 -/
structure RenderPassData19 where
  unk1 : SsbhString
  unk2 : UInt64
  deriving DecidableEq, Repr

def RenderPassData19.codec : Codec RenderPassData19 :=
  struct 8 (iso (pair ssbhString u64)
    (fun v => (v.unk1, v.unk2))
    (fun (unk1, unk2) => ⟨unk1, unk2⟩))

instance : LawC RenderPassData19.codec := by
  unfold RenderPassData19.codec; infer_instance

/-- /repo/ssbh_lib/src/formats/nrpd.rs:215-232 -/
inductive RenderPassData where
  | FramebufferRtp (v : Nrpd.RenderPassData0)
  | PassUnk1 (v : Nrpd.RenderPassData1)
  | UnkTexture1 (v : Nrpd.RenderPassData2)
  | UnkLight (v : Nrpd.RenderPassData3)
  | Unk8 (v : Nrpd.RenderPassData8)
  | ColorClear (v : Nrpd.ColorClear)
  | DepthStencilClear (v : Nrpd.DepthStencilClear)
  | Viewport (v : Nrpd.Viewport)
  | Sampler (v : Nrpd.RenderPassData13)
  | BlendState (v : Nrpd.StringPair)
  | RasterizerState (v : Nrpd.StringPair)
  | DepthStencilState (v : Nrpd.StringPair)
  | FramebufferRenderTarget (v : SsbhString)
  | FramebufferDepthStencil (v : SsbhString)
  | UnkTexture2 (v : Nrpd.RenderPassData19)
  deriving DecidableEq, Repr

def RenderPassData.tagged : Tagged RenderPassData where
  tag
    | .FramebufferRtp _ => 0
    | .PassUnk1 _ => 1
    | .UnkTexture1 _ => 2
    | .UnkLight _ => 3
    | .Unk8 _ => 8
    | .ColorClear _ => 9
    | .DepthStencilClear _ => 10
    | .Viewport _ => 12
    | .Sampler _ => 13
    | .BlendState _ => 14
    | .RasterizerState _ => 15
    | .DepthStencilState _ => 16
    | .FramebufferRenderTarget _ => 17
    | .FramebufferDepthStencil _ => 18
    | .UnkTexture2 _ => 19
  align := 8
  size
    | .FramebufferRtp v => Nrpd.RenderPassData0.codec.size v
    | .PassUnk1 v => Nrpd.RenderPassData1.codec.size v
    | .UnkTexture1 v => Nrpd.RenderPassData2.codec.size v
    | .UnkLight v => Nrpd.RenderPassData3.codec.size v
    | .Unk8 v => Nrpd.RenderPassData8.codec.size v
    | .ColorClear v => Nrpd.ColorClear.codec.size v
    | .DepthStencilClear v => Nrpd.DepthStencilClear.codec.size v
    | .Viewport v => Nrpd.Viewport.codec.size v
    | .Sampler v => Nrpd.RenderPassData13.codec.size v
    | .BlendState v => Nrpd.StringPair.codec.size v
    | .RasterizerState v => Nrpd.StringPair.codec.size v
    | .DepthStencilState v => Nrpd.StringPair.codec.size v
    | .FramebufferRenderTarget v => ssbhString.size v
    | .FramebufferDepthStencil v => ssbhString.size v
    | .UnkTexture2 v => Nrpd.RenderPassData19.codec.size v
  write v w :=
    match v with
    | .FramebufferRtp v => (struct 8 Nrpd.RenderPassData0.codec).write v w
    | .PassUnk1 v => (struct 8 Nrpd.RenderPassData1.codec).write v w
    | .UnkTexture1 v => (struct 8 Nrpd.RenderPassData2.codec).write v w
    | .UnkLight v => (struct 8 Nrpd.RenderPassData3.codec).write v w
    | .Unk8 v => (struct 8 Nrpd.RenderPassData8.codec).write v w
    | .ColorClear v => (struct 8 Nrpd.ColorClear.codec).write v w
    | .DepthStencilClear v => (struct 8 Nrpd.DepthStencilClear.codec).write v w
    | .Viewport v => (struct 8 Nrpd.Viewport.codec).write v w
    | .Sampler v => (struct 8 Nrpd.RenderPassData13.codec).write v w
    | .BlendState v => (struct 8 Nrpd.StringPair.codec).write v w
    | .RasterizerState v => (struct 8 Nrpd.StringPair.codec).write v w
    | .DepthStencilState v => (struct 8 Nrpd.StringPair.codec).write v w
    | .FramebufferRenderTarget v => (struct 8 ssbhString).write v w
    | .FramebufferDepthStencil v => (struct 8 ssbhString).write v w
    | .UnkTexture2 v => (struct 8 Nrpd.RenderPassData19.codec).write v w
  read tag b p :=
    if tag = 0 then mapRead .FramebufferRtp ((struct 8 Nrpd.RenderPassData0.codec).read b p)
    else if tag = 1 then mapRead .PassUnk1 ((struct 8 Nrpd.RenderPassData1.codec).read b p)
    else if tag = 2 then mapRead .UnkTexture1 ((struct 8 Nrpd.RenderPassData2.codec).read b p)
    else if tag = 3 then mapRead .UnkLight ((struct 8 Nrpd.RenderPassData3.codec).read b p)
    else if tag = 8 then mapRead .Unk8 ((struct 8 Nrpd.RenderPassData8.codec).read b p)
    else if tag = 9 then mapRead .ColorClear ((struct 8 Nrpd.ColorClear.codec).read b p)
    else if tag = 10 then mapRead .DepthStencilClear ((struct 8 Nrpd.DepthStencilClear.codec).read b p)
    else if tag = 12 then mapRead .Viewport ((struct 8 Nrpd.Viewport.codec).read b p)
    else if tag = 13 then mapRead .Sampler ((struct 8 Nrpd.RenderPassData13.codec).read b p)
    else if tag = 14 then mapRead .BlendState ((struct 8 Nrpd.StringPair.codec).read b p)
    else if tag = 15 then mapRead .RasterizerState ((struct 8 Nrpd.StringPair.codec).read b p)
    else if tag = 16 then mapRead .DepthStencilState ((struct 8 Nrpd.StringPair.codec).read b p)
    else if tag = 17 then mapRead .FramebufferRenderTarget ((struct 8 ssbhString).read b p)
    else if tag = 18 then mapRead .FramebufferDepthStencil ((struct 8 ssbhString).read b p)
    else if tag = 19 then mapRead .UnkTexture2 ((struct 8 Nrpd.RenderPassData19.codec).read b p)
    else .error .badTag

instance : LawT RenderPassData.tagged where
  lawful := ⟨by intro v; cases v <;> simp [RenderPassData.tagged], by decide, by
    intro v
    cases v with
    | FramebufferRtp v => exact variant_law (al := 8) (a := Nrpd.RenderPassData0.codec) (f := RenderPassData.FramebufferRtp) (fun _ => rfl) (fun _ _ => rfl)
    | PassUnk1 v => exact variant_law (al := 8) (a := Nrpd.RenderPassData1.codec) (f := RenderPassData.PassUnk1) (fun _ => rfl) (fun _ _ => rfl)
    | UnkTexture1 v => exact variant_law (al := 8) (a := Nrpd.RenderPassData2.codec) (f := RenderPassData.UnkTexture1) (fun _ => rfl) (fun _ _ => rfl)
    | UnkLight v => exact variant_law (al := 8) (a := Nrpd.RenderPassData3.codec) (f := RenderPassData.UnkLight) (fun _ => rfl) (fun _ _ => rfl)
    | Unk8 v => exact variant_law (al := 8) (a := Nrpd.RenderPassData8.codec) (f := RenderPassData.Unk8) (fun _ => rfl) (fun _ _ => rfl)
    | ColorClear v => exact variant_law (al := 8) (a := Nrpd.ColorClear.codec) (f := RenderPassData.ColorClear) (fun _ => rfl) (fun _ _ => rfl)
    | DepthStencilClear v => exact variant_law (al := 8) (a := Nrpd.DepthStencilClear.codec) (f := RenderPassData.DepthStencilClear) (fun _ => rfl) (fun _ _ => rfl)
    | Viewport v => exact variant_law (al := 8) (a := Nrpd.Viewport.codec) (f := RenderPassData.Viewport) (fun _ => rfl) (fun _ _ => rfl)
    | Sampler v => exact variant_law (al := 8) (a := Nrpd.RenderPassData13.codec) (f := RenderPassData.Sampler) (fun _ => rfl) (fun _ _ => rfl)
    | BlendState v => exact variant_law (al := 8) (a := Nrpd.StringPair.codec) (f := RenderPassData.BlendState) (fun _ => rfl) (fun _ _ => rfl)
    | RasterizerState v => exact variant_law (al := 8) (a := Nrpd.StringPair.codec) (f := RenderPassData.RasterizerState) (fun _ => rfl) (fun _ _ => rfl)
    | DepthStencilState v => exact variant_law (al := 8) (a := Nrpd.StringPair.codec) (f := RenderPassData.DepthStencilState) (fun _ => rfl) (fun _ _ => rfl)
    | FramebufferRenderTarget v => exact variant_law (al := 8) (a := ssbhString) (f := RenderPassData.FramebufferRenderTarget) (fun _ => rfl) (fun _ _ => rfl)
    | FramebufferDepthStencil v => exact variant_law (al := 8) (a := ssbhString) (f := RenderPassData.FramebufferDepthStencil) (fun _ => rfl) (fun _ _ => rfl)
    | UnkTexture2 v => exact variant_law (al := 8) (a := Nrpd.RenderPassData19.codec) (f := RenderPassData.UnkTexture2) (fun _ => rfl) (fun _ _ => rfl)⟩
  total := by
    intro v w e h
    cases v with
    | FramebufferRtp v => exact variant_total (al := 8) (a := Nrpd.RenderPassData0.codec) (f := RenderPassData.FramebufferRtp) (fun _ => rfl) h
    | PassUnk1 v => exact variant_total (al := 8) (a := Nrpd.RenderPassData1.codec) (f := RenderPassData.PassUnk1) (fun _ => rfl) h
    | UnkTexture1 v => exact variant_total (al := 8) (a := Nrpd.RenderPassData2.codec) (f := RenderPassData.UnkTexture1) (fun _ => rfl) h
    | UnkLight v => exact variant_total (al := 8) (a := Nrpd.RenderPassData3.codec) (f := RenderPassData.UnkLight) (fun _ => rfl) h
    | Unk8 v => exact variant_total (al := 8) (a := Nrpd.RenderPassData8.codec) (f := RenderPassData.Unk8) (fun _ => rfl) h
    | ColorClear v => exact variant_total (al := 8) (a := Nrpd.ColorClear.codec) (f := RenderPassData.ColorClear) (fun _ => rfl) h
    | DepthStencilClear v => exact variant_total (al := 8) (a := Nrpd.DepthStencilClear.codec) (f := RenderPassData.DepthStencilClear) (fun _ => rfl) h
    | Viewport v => exact variant_total (al := 8) (a := Nrpd.Viewport.codec) (f := RenderPassData.Viewport) (fun _ => rfl) h
    | Sampler v => exact variant_total (al := 8) (a := Nrpd.RenderPassData13.codec) (f := RenderPassData.Sampler) (fun _ => rfl) h
    | BlendState v => exact variant_total (al := 8) (a := Nrpd.StringPair.codec) (f := RenderPassData.BlendState) (fun _ => rfl) h
    | RasterizerState v => exact variant_total (al := 8) (a := Nrpd.StringPair.codec) (f := RenderPassData.RasterizerState) (fun _ => rfl) h
    | DepthStencilState v => exact variant_total (al := 8) (a := Nrpd.StringPair.codec) (f := RenderPassData.DepthStencilState) (fun _ => rfl) h
    | FramebufferRenderTarget v => exact variant_total (al := 8) (a := ssbhString) (f := RenderPassData.FramebufferRenderTarget) (fun _ => rfl) h
    | FramebufferDepthStencil v => exact variant_total (al := 8) (a := ssbhString) (f := RenderPassData.FramebufferDepthStencil) (fun _ => rfl) h
    | UnkTexture2 v => exact variant_total (al := 8) (a := Nrpd.RenderPassData19.codec) (f := RenderPassData.UnkTexture2) (fun _ => rfl) h

/-- /repo/ssbh_lib/src/formats/nrpd.rs:370-377 -/
structure Unk3Data where
  unk1 : SsbhString
  unk2 : SsbhString
  unk3 : F32
  unk4 : F32
  unk5 : F32
  unk6 : F32
  deriving DecidableEq, Repr

def Unk3Data.codec : Codec Unk3Data :=
  struct 8 (iso (pair ssbhString (pair ssbhString (pair f32 (pair f32 (pair f32 f32)))))
    (fun v => (v.unk1, v.unk2, v.unk3, v.unk4, v.unk5, v.unk6))
    (fun (unk1, unk2, unk3, unk4, unk5, unk6) => ⟨unk1, unk2, unk3, unk4, unk5, unk6⟩))

instance : LawC Unk3Data.codec := by
  unfold Unk3Data.codec; infer_instance

/-- /repo/ssbh_lib/src/formats/nrpd.rs:361-365 -/
inductive RenderPassUnkData where
  | UnkDataUnk0 (v : Unit)
  | UnkDataUnk3 (v : Nrpd.Unk3Data)
  deriving DecidableEq, Repr

def RenderPassUnkData.tagged : Tagged RenderPassUnkData where
  tag
    | .UnkDataUnk0 _ => 0
    | .UnkDataUnk3 _ => 3
  align := 8
  size
    | .UnkDataUnk0 v => unitC.size v
    | .UnkDataUnk3 v => Nrpd.Unk3Data.codec.size v
  write v w :=
    match v with
    | .UnkDataUnk0 v => (struct 8 unitC).write v w
    | .UnkDataUnk3 v => (struct 8 Nrpd.Unk3Data.codec).write v w
  read tag b p :=
    if tag = 0 then mapRead .UnkDataUnk0 ((struct 8 unitC).read b p)
    else if tag = 3 then mapRead .UnkDataUnk3 ((struct 8 Nrpd.Unk3Data.codec).read b p)
    else .error .badTag

instance : LawT RenderPassUnkData.tagged where
  lawful := ⟨by intro v; cases v <;> simp [RenderPassUnkData.tagged], by decide, by
    intro v
    cases v with
    | UnkDataUnk0 v => exact variant_law (al := 8) (a := unitC) (f := RenderPassUnkData.UnkDataUnk0) (fun _ => rfl) (fun _ _ => rfl)
    | UnkDataUnk3 v => exact variant_law (al := 8) (a := Nrpd.Unk3Data.codec) (f := RenderPassUnkData.UnkDataUnk3) (fun _ => rfl) (fun _ _ => rfl)⟩
  total := by
    intro v w e h
    cases v with
    | UnkDataUnk0 v => exact variant_total (al := 8) (a := unitC) (f := RenderPassUnkData.UnkDataUnk0) (fun _ => rfl) h
    | UnkDataUnk3 v => exact variant_total (al := 8) (a := Nrpd.Unk3Data.codec) (f := RenderPassUnkData.UnkDataUnk3) (fun _ => rfl) h

/-- /repo/ssbh_lib/src/formats/nrpd.rs:352-358 -/
structure RenderPassContainer where
  name : SsbhString
  unk1 : List (Option Nrpd.RenderPassData)
  unk2 : List (Option Nrpd.RenderPassData)
  unk3 : Option Nrpd.RenderPassUnkData
  deriving DecidableEq, Repr

def RenderPassContainer.codec : Codec RenderPassContainer :=
  struct 8 (padAfter 8 (iso (pair ssbhString (pair (array (enum64 Nrpd.RenderPassData.tagged)) (pair (array (enum64 Nrpd.RenderPassData.tagged)) (enum64 Nrpd.RenderPassUnkData.tagged))))
    (fun v => (v.name, v.unk1, v.unk2, v.unk3))
    (fun (name, unk1, unk2, unk3) => ⟨name, unk1, unk2, unk3⟩)))

instance : LawC RenderPassContainer.codec := by
  unfold RenderPassContainer.codec; infer_instance

/-- /repo/ssbh_lib/src/formats/nrpd.rs:398-401 -/
structure UnkItem20 where
  unk1 : SsbhString
  unk2 : SsbhString
  deriving DecidableEq, Repr

def UnkItem20.codec : Codec UnkItem20 :=
  struct 8 (iso (pair ssbhString ssbhString)
    (fun v => (v.unk1, v.unk2))
    (fun (unk1, unk2) => ⟨unk1, unk2⟩))

instance : LawC UnkItem20.codec := by
  unfold UnkItem20.codec; infer_instance

/-- /repo/ssbh_lib/src/formats/nrpd.rs:406-410 -/
structure UnkItem21 where
  unk1 : SsbhString
  unk2 : SsbhString
  unk3 : Vector UInt32 2
  deriving DecidableEq, Repr

def UnkItem21.codec : Codec UnkItem21 :=
  struct 8 (iso (pair ssbhString (pair ssbhString (arrayN 2 u32)))
    (fun v => (v.unk1, v.unk2, v.unk3))
    (fun (unk1, unk2, unk3) => ⟨unk1, unk2, unk3⟩))

instance : LawC UnkItem21.codec := by
  unfold UnkItem21.codec; infer_instance

/-- /repo/ssbh_lib/src/formats/nrpd.rs:415-423 -/
structure UnkItem22 where
  unk1 : SsbhString
  unk2 : SsbhString
  unk3 : UInt32
  unk4 : UInt32
  unk5 : UInt32
  unk6 : Nrpd.UnkFormat
  unk8 : UInt32
  deriving DecidableEq, Repr

def UnkItem22.codec : Codec UnkItem22 :=
  struct 8 (iso (pair ssbhString (pair ssbhString (pair u32 (pair u32 (pair u32 (pair Nrpd.UnkFormat.codec u32))))))
    (fun v => (v.unk1, v.unk2, v.unk3, v.unk4, v.unk5, v.unk6, v.unk8))
    (fun (unk1, unk2, unk3, unk4, unk5, unk6, unk8) => ⟨unk1, unk2, unk3, unk4, unk5, unk6, unk8⟩))

instance : LawC UnkItem22.codec := by
  unfold UnkItem22.codec; infer_instance

/-- /repo/ssbh_lib/src/formats/nrpd.rs:428-432 -/
structure UnkItem24 where
  unk1 : SsbhString
  unk2 : SsbhString
  unk3 : Vector UInt32 6
  deriving DecidableEq, Repr

def UnkItem24.codec : Codec UnkItem24 :=
  struct 8 (iso (pair ssbhString (pair ssbhString (arrayN 6 u32)))
    (fun v => (v.unk1, v.unk2, v.unk3))
    (fun (unk1, unk2, unk3) => ⟨unk1, unk2, unk3⟩))

instance : LawC UnkItem24.codec := by
  unfold UnkItem24.codec; infer_instance

/-- /repo/ssbh_lib/src/formats/nrpd.rs:434-440 -/
inductive UnkItem2 where
  | UnkItem20 (v : Nrpd.UnkItem20)
  | UnkItem21 (v : Nrpd.UnkItem21)
  | UnkItem22 (v : Nrpd.UnkItem22)
  | UnkItem24 (v : Nrpd.UnkItem24)
  deriving DecidableEq, Repr

def UnkItem2.tagged : Tagged UnkItem2 where
  tag
    | .UnkItem20 _ => 0
    | .UnkItem21 _ => 1
    | .UnkItem22 _ => 2
    | .UnkItem24 _ => 4
  align := 8
  size
    | .UnkItem20 v => Nrpd.UnkItem20.codec.size v
    | .UnkItem21 v => Nrpd.UnkItem21.codec.size v
    | .UnkItem22 v => Nrpd.UnkItem22.codec.size v
    | .UnkItem24 v => Nrpd.UnkItem24.codec.size v
  write v w :=
    match v with
    | .UnkItem20 v => (struct 8 Nrpd.UnkItem20.codec).write v w
    | .UnkItem21 v => (struct 8 Nrpd.UnkItem21.codec).write v w
    | .UnkItem22 v => (struct 8 Nrpd.UnkItem22.codec).write v w
    | .UnkItem24 v => (struct 8 Nrpd.UnkItem24.codec).write v w
  read tag b p :=
    if tag = 0 then mapRead .UnkItem20 ((struct 8 Nrpd.UnkItem20.codec).read b p)
    else if tag = 1 then mapRead .UnkItem21 ((struct 8 Nrpd.UnkItem21.codec).read b p)
    else if tag = 2 then mapRead .UnkItem22 ((struct 8 Nrpd.UnkItem22.codec).read b p)
    else if tag = 4 then mapRead .UnkItem24 ((struct 8 Nrpd.UnkItem24.codec).read b p)
    else .error .badTag

instance : LawT UnkItem2.tagged where
  lawful := ⟨by intro v; cases v <;> simp [UnkItem2.tagged], by decide, by
    intro v
    cases v with
    | UnkItem20 v => exact variant_law (al := 8) (a := Nrpd.UnkItem20.codec) (f := UnkItem2.UnkItem20) (fun _ => rfl) (fun _ _ => rfl)
    | UnkItem21 v => exact variant_law (al := 8) (a := Nrpd.UnkItem21.codec) (f := UnkItem2.UnkItem21) (fun _ => rfl) (fun _ _ => rfl)
    | UnkItem22 v => exact variant_law (al := 8) (a := Nrpd.UnkItem22.codec) (f := UnkItem2.UnkItem22) (fun _ => rfl) (fun _ _ => rfl)
    | UnkItem24 v => exact variant_law (al := 8) (a := Nrpd.UnkItem24.codec) (f := UnkItem2.UnkItem24) (fun _ => rfl) (fun _ _ => rfl)⟩
  total := by
    intro v w e h
    cases v with
    | UnkItem20 v => exact variant_total (al := 8) (a := Nrpd.UnkItem20.codec) (f := UnkItem2.UnkItem20) (fun _ => rfl) h
    | UnkItem21 v => exact variant_total (al := 8) (a := Nrpd.UnkItem21.codec) (f := UnkItem2.UnkItem21) (fun _ => rfl) h
    | UnkItem22 v => exact variant_total (al := 8) (a := Nrpd.UnkItem22.codec) (f := UnkItem2.UnkItem22) (fun _ => rfl) h
    | UnkItem24 v => exact variant_total (al := 8) (a := Nrpd.UnkItem24.codec) (f := UnkItem2.UnkItem24) (fun _ => rfl) h

/-- /repo/ssbh_lib/src/formats/nrpd.rs:445-448 -/
structure UnkItem3 where
  name : SsbhString
  value : SsbhString
  deriving DecidableEq, Repr

def UnkItem3.codec : Codec UnkItem3 :=
  struct 8 (iso (pair ssbhString ssbhString)
    (fun v => (v.name, v.value))
    (fun (name, value) => ⟨name, value⟩))

instance : LawC UnkItem3.codec := by
  unfold UnkItem3.codec; infer_instance

/-- /repo/ssbh_lib/src/formats/nrpd.rs:390-393 -/
structure UnkItem1 where
  unk1 : SsbhString
  unk2 : List Nrpd.UnkItem3
  deriving DecidableEq, Repr

def UnkItem1.codec : Codec UnkItem1 :=
  struct 8 (iso (pair ssbhString (array Nrpd.UnkItem3.codec))
    (fun v => (v.unk1, v.unk2))
    (fun (unk1, unk2) => ⟨unk1, unk2⟩))

instance : LawC UnkItem1.codec := by
  unfold UnkItem1.codec; infer_instance

/-- The fields of `Nrpd::V16`, /repo/ssbh_lib/src/formats/nrpd.rs:21-44, with the writer of the enum for this variant. -/
structure V16Data where
  frame_buffers : List (Option Nrpd.FrameBuffer)
  state_containers : List (Option Nrpd.State)
  render_passes : List Nrpd.RenderPassContainer
  unk_string_list1 : List Nrpd.StringPair
  unk_string_list2 : List (Option Nrpd.UnkItem2)
  unk_list : List Nrpd.UnkItem1
  unk_width1 : UInt32
  unk_height1 : UInt32
  unk3 : UInt32
  unk4 : UInt32
  unk5 : UInt32
  unk6 : UInt32
  unk7 : UInt32
  unk8 : UInt32
  unk9 : SsbhString
  unk_width2 : UInt32
  unk_height2 : UInt32
  unk10 : UInt64
  deriving DecidableEq, Repr

def V16Data.codec : Codec V16Data :=
  struct 8 (iso (pair (array (enum64 Nrpd.FrameBuffer.tagged)) (pair (array (enum64 Nrpd.State.tagged)) (pair (array Nrpd.RenderPassContainer.codec) (pair (array Nrpd.StringPair.codec) (pair (array (enum64 Nrpd.UnkItem2.tagged)) (pair (array Nrpd.UnkItem1.codec) (pair u32 (pair u32 (pair u32 (pair u32 (pair u32 (pair u32 (pair u32 (pair u32 (pair ssbhString (pair u32 (pair u32 u64)))))))))))))))))
    (fun v => (v.frame_buffers, v.state_containers, v.render_passes, v.unk_string_list1, v.unk_string_list2, v.unk_list, v.unk_width1, v.unk_height1, v.unk3, v.unk4, v.unk5, v.unk6, v.unk7, v.unk8, v.unk9, v.unk_width2, v.unk_height2, v.unk10))
    (fun (frame_buffers, state_containers, render_passes, unk_string_list1, unk_string_list2, unk_list, unk_width1, unk_height1, unk3, unk4, unk5, unk6, unk7, unk8, unk9, unk_width2, unk_height2, unk10) => ⟨frame_buffers, state_containers, render_passes, unk_string_list1, unk_string_list2, unk_list, unk_width1, unk_height1, unk3, unk4, unk5, unk6, unk7, unk8, unk9, unk_width2, unk_height2, unk10⟩))

instance : LawC V16Data.codec := by
  unfold V16Data.codec; infer_instance

end Nrpd

/-- /repo/ssbh_lib/src/formats/nrpd.rs:21-44 -/
inductive Nrpd where
  | V16 (v : Nrpd.V16Data)
  deriving DecidableEq, Repr

/-- /repo/ssbh_lib/src/formats/nrpd.rs:21-44, and the magic from /repo/ssbh_lib/src/lib.rs:300-309. -/
def Nrpd.format : Format Nrpd where
  magic := [0x44, 0x50, 0x52, 0x4e] -- DPRN
  version
    | .V16 _ => (1, 6)
  size
    | .V16 v => Nrpd.V16Data.codec.size v
  write v w :=
    match v with
    | .V16 v => Nrpd.V16Data.codec.write v w
  read major minor b p :=
    if major = 1 ∧ minor = 6 then mapRead .V16 (Nrpd.V16Data.codec.read b p)
    else .error .badTag
  alignAfter
    | .V16 _ => 1

instance : LawFormat Nrpd.format where
  magic := rfl
  lawful := by
    intro v
    cases v with
    | V16 v => exact format_variant_law (al := 8) (c := Nrpd.V16Data.codec) (f := Nrpd.V16) rfl (fun _ => rfl) (fun _ _ => rfl)
  total := by
    intro v w e h
    cases v with
    | V16 v => exact format_variant_total (c := Nrpd.V16Data.codec) (f := Nrpd.V16) (fun _ => rfl) h
  align := by intro v; cases v <;> simp [Nrpd.format]
  version := by
    intro major minor b p v p' h
    simp only [Nrpd.format] at h
    split at h
    · rename_i hv; obtain ⟨x, rfl⟩ := mapRead_ok h; obtain ⟨rfl, rfl⟩ := hv; rfl
    cases h

end Verif
