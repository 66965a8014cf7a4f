import Verif.Derive.Port
/-!
# The files of other platforms can be read

Written by tools/gen_derive.py from the Rust definitions.
-/

namespace Verif

open Derive

instance : Port (relPtr ssbhString) := relPtr_law inferInstance (by decide)
instance : Port (relPtr Verif.u64) := relPtr_law inferInstance (by decide)

instance : Port Vector3.codec := .plain inferInstance fun _ => rfl

instance : Port Matrix3x3.codec := .plain inferInstance fun _ => rfl

instance : Port Vector4.codec := .plain inferInstance fun _ => rfl

instance : Port Color4f.codec := .plain inferInstance fun _ => rfl

instance : Port Matrix4x4.codec := .plain inferInstance fun _ => rfl

instance : Port Modl.ModlEntry.codec := .plain inferInstance fun _ => rfl

theorem Modl.fileOn_law {P : Platform} (hP : P.Ok) : LawFormat (fileOn P Modl) := Derive.fileOn_law fun v => by
  cases v with
  | V17 v => exact On.file hP (c := Modl.V17Data.codec) (f := Modl.V17) rfl (On.first _ v) (fun _ _ => rfl)

instance : Port Matl.ParamId.codec := .plain inferInstance fun _ => rfl

instance : Port Matl.WrapMode.codec := .plain inferInstance fun _ => rfl

instance : Port Matl.MinFilter.codec := .plain inferInstance fun _ => rfl

instance : Port Matl.MagFilter.codec := .plain inferInstance fun _ => rfl

instance : Port Matl.FilteringType.codec := .plain inferInstance fun _ => rfl

instance : Port Matl.MaxAnisotropy.codec := .plain inferInstance fun _ => rfl

instance : Port Matl.Sampler.codec := .plain inferInstance fun _ => rfl

instance : Port Matl.UvTransform.codec := .plain inferInstance fun _ => rfl

instance : Port Matl.BlendFactor.codec := .plain inferInstance fun _ => rfl

instance : Port Matl.BlendOperation.codec := .plain inferInstance fun _ => rfl

instance : Port Matl.BlendStateV15.codec := .plain inferInstance fun _ => rfl

instance : Port Matl.CullMode.codec := .plain inferInstance fun _ => rfl

instance : Port Matl.RasterizerStateV15.codec := .plain inferInstance fun _ => rfl

instance : PortT Matl.ParamV15.tagged := portT (by decide) fun P hP v => by
  cases v with
  | Float v => exact On.law (d := f32) (f := Matl.ParamV15.Float) (PortW.law P hP) (On.first _ v) (fun _ _ => rfl)
  | Boolean v => exact On.law (d := u32) (f := Matl.ParamV15.Boolean) (PortW.law P hP) (On.later (On.first _ v)) (fun _ _ => rfl)
  | Vector4 v => exact On.law (d := Vector4.codec) (f := Matl.ParamV15.Vector4) (PortW.law P hP) (On.later (On.later (On.first _ v))) (fun _ _ => rfl)
  | Unk7 v => exact On.law (d := Color4f.codec) (f := Matl.ParamV15.Unk7) (PortW.law P hP) (On.later (On.later (On.later (On.first _ v)))) (fun _ _ => rfl)
  | String v => exact On.law (d := ssbhString) (f := Matl.ParamV15.String) (PortW.law P hP) (On.later (On.later (On.later (On.later (On.first _ v))))) (fun _ _ => rfl)
  | Sampler v => exact On.law (d := Matl.Sampler.codec) (f := Matl.ParamV15.Sampler) (PortW.law P hP) (On.later (On.later (On.later (On.later (On.later (On.first _ v)))))) (fun _ _ => rfl)
  | UvTransform v => exact On.law (d := Matl.UvTransform.codec) (f := Matl.ParamV15.UvTransform) (PortW.law P hP) (On.later (On.later (On.later (On.later (On.later (On.later (On.first _ v))))))) (fun _ _ => rfl)
  | BlendState v => exact On.law (d := Matl.BlendStateV15.codec) (f := Matl.ParamV15.BlendState) (PortW.law P hP) (On.later (On.later (On.later (On.later (On.later (On.later (On.later (On.first _ v)))))))) (fun _ _ => rfl)
  | RasterizerState v => exact On.law (d := Matl.RasterizerStateV15.codec) (f := Matl.ParamV15.RasterizerState) (PortW.law P hP) (On.later (On.later (On.later (On.later (On.later (On.later (On.later (On.later (On.first _ v))))))))) (fun _ _ => rfl)

instance : Port Matl.AttributeV15.codec := structPort

instance : Port Matl.MatlEntryV15.codec := structPort

instance : PortW Matl.BlendStateV16.codec := .plain inferInstance fun _ => rfl

instance : Port Matl.FillMode.codec := .plain inferInstance fun _ => rfl

instance : PortW Matl.RasterizerStateV16.codec := .plain inferInstance fun _ => rfl

instance : PortT Matl.ParamV16.tagged := portT (by decide) fun P hP v => by
  cases v with
  | Float v => exact On.law (d := f32) (f := Matl.ParamV16.Float) (PortW.law P hP) (On.first _ v) (fun _ _ => rfl)
  | Boolean v => exact On.law (d := u32) (f := Matl.ParamV16.Boolean) (PortW.law P hP) (On.later (On.first _ v)) (fun _ _ => rfl)
  | Vector4 v => exact On.law (d := Vector4.codec) (f := Matl.ParamV16.Vector4) (PortW.law P hP) (On.later (On.later (On.first _ v))) (fun _ _ => rfl)
  | Unk7 v => exact On.law (d := Color4f.codec) (f := Matl.ParamV16.Unk7) (PortW.law P hP) (On.later (On.later (On.later (On.first _ v)))) (fun _ _ => rfl)
  | String v => exact On.law (d := ssbhString) (f := Matl.ParamV16.String) (PortW.law P hP) (On.later (On.later (On.later (On.later (On.first _ v))))) (fun _ _ => rfl)
  | Sampler v => exact On.law (d := Matl.Sampler.codec) (f := Matl.ParamV16.Sampler) (PortW.law P hP) (On.later (On.later (On.later (On.later (On.later (On.first _ v)))))) (fun _ _ => rfl)
  | UvTransform v => exact On.law (d := Matl.UvTransform.codec) (f := Matl.ParamV16.UvTransform) (PortW.law P hP) (On.later (On.later (On.later (On.later (On.later (On.later (On.first _ v))))))) (fun _ _ => rfl)
  | BlendState v => exact On.law (d := Matl.BlendStateV16.codec) (f := Matl.ParamV16.BlendState) (PortW.law P hP) (On.later (On.later (On.later (On.later (On.later (On.later (On.later (On.first _ v)))))))) (fun _ _ => rfl)
  | RasterizerState v => exact On.law (d := Matl.RasterizerStateV16.codec) (f := Matl.ParamV16.RasterizerState) (PortW.law P hP) (On.later (On.later (On.later (On.later (On.later (On.later (On.later (On.later (On.first _ v))))))))) (fun _ _ => rfl)

instance : Port Matl.AttributeV16.codec := structPort

instance : Port Matl.MatlEntryV16.codec := structPort

theorem Matl.fileOn_law {P : Platform} (hP : P.Ok) : LawFormat (fileOn P Matl) := Derive.fileOn_law fun v => by
  cases v with
  | V15 v => exact On.file hP (c := Matl.V15Data.codec) (f := Matl.V15) rfl (On.first _ v) (fun _ _ => rfl)
  | V16 v => exact On.file hP (c := Matl.V16Data.codec) (f := Matl.V16) rfl (On.later (On.first _ v)) (fun _ _ => rfl)

instance : Port Nrpd.UnkFormat.codec := .plain inferInstance fun _ => rfl

instance : Port Nrpd.Framebuffer0.codec := .plain inferInstance fun _ => rfl

instance : Port Nrpd.Framebuffer1.codec := .plain inferInstance fun _ => rfl

instance : Port Nrpd.UniformBuffer.codec := .plain inferInstance fun _ => rfl

instance : Port Nrpd.Framebuffer3.codec := .plain inferInstance fun _ => rfl

instance : Port Nrpd.Framebuffer4.codec := .plain inferInstance fun _ => rfl

instance : PortT Nrpd.FrameBuffer.tagged := portT (by decide) fun P hP v => by
  cases v with
  | Framebuffer0 v => exact On.law (d := Nrpd.Framebuffer0.codec) (f := Nrpd.FrameBuffer.Framebuffer0) (PortW.law P hP) (On.first _ v) (fun _ _ => rfl)
  | Framebuffer1 v => exact On.law (d := Nrpd.Framebuffer1.codec) (f := Nrpd.FrameBuffer.Framebuffer1) (PortW.law P hP) (On.later (On.first _ v)) (fun _ _ => rfl)
  | UniformBuffer v => exact On.law (d := Nrpd.UniformBuffer.codec) (f := Nrpd.FrameBuffer.UniformBuffer) (PortW.law P hP) (On.later (On.later (On.first _ v))) (fun _ _ => rfl)
  | Framebuffer3 v => exact On.law (d := Nrpd.Framebuffer3.codec) (f := Nrpd.FrameBuffer.Framebuffer3) (PortW.law P hP) (On.later (On.later (On.later (On.first _ v)))) (fun _ _ => rfl)
  | Framebuffer4 v => exact On.law (d := Nrpd.Framebuffer4.codec) (f := Nrpd.FrameBuffer.Framebuffer4) (PortW.law P hP) (On.later (On.later (On.later (On.later (On.first _ v))))) (fun _ _ => rfl)

instance : Port Nrpd.NrpdSampler.codec := .plain inferInstance fun _ => rfl

instance : Port Nrpd.NrpdRasterizerState.codec := .plain inferInstance fun _ => rfl

instance : Port Nrpd.DepthState.codec := .plain inferInstance fun _ => rfl

instance : Port Nrpd.NrpdBlendState.codec := .plain inferInstance fun _ => rfl

instance : PortT Nrpd.State.tagged := portT (by decide) fun P hP v => by
  cases v with
  | Sampler v => exact On.law (d := Nrpd.NrpdSampler.codec) (f := Nrpd.State.Sampler) (PortW.law P hP) (On.first _ v) (fun _ _ => rfl)
  | RasterizerState v => exact On.law (d := Nrpd.NrpdRasterizerState.codec) (f := Nrpd.State.RasterizerState) (PortW.law P hP) (On.later (On.first _ v)) (fun _ _ => rfl)
  | DepthState v => exact On.law (d := Nrpd.DepthState.codec) (f := Nrpd.State.DepthState) (PortW.law P hP) (On.later (On.later (On.first _ v))) (fun _ _ => rfl)
  | BlendState v => exact On.law (d := Nrpd.NrpdBlendState.codec) (f := Nrpd.State.BlendState) (PortW.law P hP) (On.later (On.later (On.later (On.first _ v)))) (fun _ _ => rfl)

instance : Port Nrpd.RenderPassData0.codec := .plain inferInstance fun _ => rfl

instance : Port Nrpd.RenderPassData1.codec := .plain inferInstance fun _ => rfl

instance : Port Nrpd.RenderPassData2.codec := structPort

instance : Port Nrpd.Unk8Data.codec := .plain inferInstance fun _ => rfl

instance : Port (relPtr Nrpd.Unk8Data.codec) := relPtr_law inferInstance (by decide)

instance : Port Nrpd.RenderPassData3.codec := structPort

instance : Port Nrpd.RenderPassData8.codec := structPort

instance : Port Nrpd.ColorClear.codec := .plain inferInstance fun _ => rfl

instance : Port Nrpd.DepthStencilClear.codec := .plain inferInstance fun _ => rfl

instance : Port Nrpd.Viewport.codec := .plain inferInstance fun _ => rfl

instance : Port Nrpd.RenderPassData13.codec := structPort

instance : Port Nrpd.StringPair.codec := .plain inferInstance fun _ => rfl

instance : Port Nrpd.RenderPassData19.codec := .plain inferInstance fun _ => rfl

instance : PortT Nrpd.RenderPassData.tagged := portT (by decide) fun P hP v => by
  cases v with
  | FramebufferRtp v => exact On.law (d := Nrpd.RenderPassData0.codec) (f := Nrpd.RenderPassData.FramebufferRtp) (PortW.law P hP) (On.first _ v) (fun _ _ => rfl)
  | PassUnk1 v => exact On.law (d := Nrpd.RenderPassData1.codec) (f := Nrpd.RenderPassData.PassUnk1) (PortW.law P hP) (On.later (On.first _ v)) (fun _ _ => rfl)
  | UnkTexture1 v => exact On.law (d := Nrpd.RenderPassData2.codec) (f := Nrpd.RenderPassData.UnkTexture1) (PortW.law P hP) (On.later (On.later (On.first _ v))) (fun _ _ => rfl)
  | UnkLight v => exact On.law (d := Nrpd.RenderPassData3.codec) (f := Nrpd.RenderPassData.UnkLight) (PortW.law P hP) (On.later (On.later (On.later (On.first _ v)))) (fun _ _ => rfl)
  | Unk8 v => exact On.law (d := Nrpd.RenderPassData8.codec) (f := Nrpd.RenderPassData.Unk8) (PortW.law P hP) (On.later (On.later (On.later (On.later (On.first _ v))))) (fun _ _ => rfl)
  | ColorClear v => exact On.law (d := Nrpd.ColorClear.codec) (f := Nrpd.RenderPassData.ColorClear) (PortW.law P hP) (On.later (On.later (On.later (On.later (On.later (On.first _ v)))))) (fun _ _ => rfl)
  | DepthStencilClear v => exact On.law (d := Nrpd.DepthStencilClear.codec) (f := Nrpd.RenderPassData.DepthStencilClear) (PortW.law P hP) (On.later (On.later (On.later (On.later (On.later (On.later (On.first _ v))))))) (fun _ _ => rfl)
  | Viewport v => exact On.law (d := Nrpd.Viewport.codec) (f := Nrpd.RenderPassData.Viewport) (PortW.law P hP) (On.later (On.later (On.later (On.later (On.later (On.later (On.later (On.first _ v)))))))) (fun _ _ => rfl)
  | Sampler v => exact On.law (d := Nrpd.RenderPassData13.codec) (f := Nrpd.RenderPassData.Sampler) (PortW.law P hP) (On.later (On.later (On.later (On.later (On.later (On.later (On.later (On.later (On.first _ v))))))))) (fun _ _ => rfl)
  | BlendState v => exact On.law (d := Nrpd.StringPair.codec) (f := Nrpd.RenderPassData.BlendState) (PortW.law P hP) (On.later (On.later (On.later (On.later (On.later (On.later (On.later (On.later (On.later (On.first _ v)))))))))) (fun _ _ => rfl)
  | RasterizerState v => exact On.law (d := Nrpd.StringPair.codec) (f := Nrpd.RenderPassData.RasterizerState) (PortW.law P hP) (On.later (On.later (On.later (On.later (On.later (On.later (On.later (On.later (On.later (On.later (On.first _ v))))))))))) (fun _ _ => rfl)
  | DepthStencilState v => exact On.law (d := Nrpd.StringPair.codec) (f := Nrpd.RenderPassData.DepthStencilState) (PortW.law P hP) (On.later (On.later (On.later (On.later (On.later (On.later (On.later (On.later (On.later (On.later (On.later (On.first _ v)))))))))))) (fun _ _ => rfl)
  | FramebufferRenderTarget v => exact On.law (d := ssbhString) (f := Nrpd.RenderPassData.FramebufferRenderTarget) (PortW.law P hP) (On.later (On.later (On.later (On.later (On.later (On.later (On.later (On.later (On.later (On.later (On.later (On.later (On.first _ v))))))))))))) (fun _ _ => rfl)
  | FramebufferDepthStencil v => exact On.law (d := ssbhString) (f := Nrpd.RenderPassData.FramebufferDepthStencil) (PortW.law P hP) (On.later (On.later (On.later (On.later (On.later (On.later (On.later (On.later (On.later (On.later (On.later (On.later (On.later (On.first _ v)))))))))))))) (fun _ _ => rfl)
  | UnkTexture2 v => exact On.law (d := Nrpd.RenderPassData19.codec) (f := Nrpd.RenderPassData.UnkTexture2) (PortW.law P hP) (On.later (On.later (On.later (On.later (On.later (On.later (On.later (On.later (On.later (On.later (On.later (On.later (On.later (On.later (On.first _ v))))))))))))))) (fun _ _ => rfl)

instance : Port Nrpd.Unk3Data.codec := .plain inferInstance fun _ => rfl

instance : PortT Nrpd.RenderPassUnkData.tagged := portT (by decide) fun P hP v => by
  cases v with
  | UnkDataUnk0 v => exact On.law (d := unitC) (f := Nrpd.RenderPassUnkData.UnkDataUnk0) (PortW.law P hP) (On.first _ v) (fun _ _ => rfl)
  | UnkDataUnk3 v => exact On.law (d := Nrpd.Unk3Data.codec) (f := Nrpd.RenderPassUnkData.UnkDataUnk3) (PortW.law P hP) (On.later (On.first _ v)) (fun _ _ => rfl)

instance : Port Nrpd.RenderPassContainer.codec := structPort

instance : Port Nrpd.UnkItem20.codec := .plain inferInstance fun _ => rfl

instance : Port Nrpd.UnkItem21.codec := .plain inferInstance fun _ => rfl

instance : Port Nrpd.UnkItem22.codec := .plain inferInstance fun _ => rfl

instance : Port Nrpd.UnkItem24.codec := .plain inferInstance fun _ => rfl

instance : PortT Nrpd.UnkItem2.tagged := portT (by decide) fun P hP v => by
  cases v with
  | UnkItem20 v => exact On.law (d := Nrpd.UnkItem20.codec) (f := Nrpd.UnkItem2.UnkItem20) (PortW.law P hP) (On.first _ v) (fun _ _ => rfl)
  | UnkItem21 v => exact On.law (d := Nrpd.UnkItem21.codec) (f := Nrpd.UnkItem2.UnkItem21) (PortW.law P hP) (On.later (On.first _ v)) (fun _ _ => rfl)
  | UnkItem22 v => exact On.law (d := Nrpd.UnkItem22.codec) (f := Nrpd.UnkItem2.UnkItem22) (PortW.law P hP) (On.later (On.later (On.first _ v))) (fun _ _ => rfl)
  | UnkItem24 v => exact On.law (d := Nrpd.UnkItem24.codec) (f := Nrpd.UnkItem2.UnkItem24) (PortW.law P hP) (On.later (On.later (On.later (On.first _ v)))) (fun _ _ => rfl)

instance : Port Nrpd.UnkItem3.codec := .plain inferInstance fun _ => rfl

instance : Port Nrpd.UnkItem1.codec := .plain inferInstance fun _ => rfl

theorem Nrpd.fileOn_law {P : Platform} (hP : P.Ok) : LawFormat (fileOn P Nrpd) := Derive.fileOn_law fun v => by
  cases v with
  | V16 v => exact On.file hP (c := Nrpd.V16Data.codec) (f := Nrpd.V16) rfl (On.first _ v) (fun _ _ => rfl)

end Verif
