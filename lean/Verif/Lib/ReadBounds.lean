import Verif.Formats.Ssbh
/-!
# How far readers advance

`Adv c`: a successful read advances by exactly the size of the type and starts inside of the input. There is
an instance for the element type of each array of the ten formats.
-/

namespace Verif

def AdvBy (c : Codec α) (k : Nat) : Prop :=
  ∀ b p v p', c.read b p = .ok (v, p') → p' = p + k ∧ p < b.length

class Adv (c : Codec α) : Prop where
  adv : ∃ k, (∀ v, c.size v = k) ∧ 0 < k ∧ AdvBy c k

theorem readBytes_ok {n b p bs p'} (h : readBytes n b p = .ok (bs, p')) :
    n ≤ b.length - p ∧ bs = (b.drop p).take n ∧ p' = p + n := by
  unfold readBytes at h
  split at h
  · cases h; exact ⟨‹_›, rfl, rfl⟩
  · cases h

theorem readLe_ok {n b p x p'} (h : readLe n b p = .ok (x, p')) :
    n ≤ b.length - p ∧ x = fromLe ((b.drop p).take n) ∧ p' = p + n := by
  unfold readLe at h
  split at h
  · rename_i bs q hb
    cases h
    obtain ⟨h1, rfl, rfl⟩ := readBytes_ok hb
    exact ⟨h1, rfl, rfl⟩
  · cases h

theorem prim_adv {n : Nat} {toNat : α → Nat} {ofNat} (hn : 0 < n) : Adv (prim n toNat ofNat) := by
  refine ⟨n, fun _ => rfl, hn, ?_⟩
  intro b p v p' h
  simp only [prim] at h
  split at h
  · cases h
  · rename_i x q hr
    obtain ⟨h1, _, rfl⟩ := readLe_ok hr
    split at h
    · cases h; exact ⟨rfl, by omega⟩
    · cases h

instance : Adv u8 := prim_adv (by decide)
instance : Adv u16 := prim_adv (by decide)
instance : Adv u32 := prim_adv (by decide)
instance : Adv u64 := prim_adv (by decide)
instance : Adv i16 := prim_adv (by decide)
instance : Adv i32 := prim_adv (by decide)
instance : Adv f32 := inferInstanceAs (Adv u32)

instance [ha : Adv a] [hb : Adv b] : Adv (pair a b) := by
  obtain ⟨k, hk, hk0, ha⟩ := ha.adv
  obtain ⟨l, hl, hl0, hb⟩ := hb.adv
  refine ⟨k + l, fun v => by simp [pair, hk, hl], by omega, ?_⟩
  intro bs p v p' h
  simp only [pair] at h
  split at h
  · cases h
  · rename_i x p1 h1
    split at h
    · cases h
    · rename_i y p2 h2
      cases h
      have := ha _ _ _ _ h1
      have := hb _ _ _ _ h2
      omega

instance [ha : Adv a] : Adv (padAfter n a) := by
  obtain ⟨k, hk, hk0, ha⟩ := ha.adv
  refine ⟨k + n, fun v => by simp [padAfter, hk], by omega, ?_⟩
  intro bs p v p' h
  simp only [padAfter] at h
  split at h
  · cases h
  · rename_i x p1 h1
    cases h
    have := ha _ _ _ _ h1
    omega

instance {to : β → α} {from' : α → β} {h} [ha : Adv a] : Adv (iso a to from' h) := by
  obtain ⟨k, hk, hk0, ha⟩ := ha.adv
  refine ⟨k, fun v => hk _, hk0, ?_⟩
  intro bs p v p' h
  simp only [iso] at h
  split at h
  · cases h
  · rename_i x p1 h1
    cases h
    exact ha _ _ _ _ h1

instance [ha : Adv a] : Adv (struct al a) := ⟨ha.adv⟩

theorem reprEnum_adv {n tags} (hn : 0 < n) : Adv (reprEnum n tags) :=
  have := prim_adv (toNat := ReprEnum.tag) (ofNat := ReprEnum.ofNat tags) hn
  inferInstanceAs (Adv (struct n _))
instance : Adv (reprEnum 1 tags) := reprEnum_adv (by decide)
instance : Adv (reprEnum 4 tags) := reprEnum_adv (by decide)
instance : Adv (reprEnum 8 tags) := reprEnum_adv (by decide)
instance : Adv bitfield16 := inferInstanceAs (Adv (struct 2 u16))
instance : Adv bitfield32 := inferInstanceAs (Adv (struct 4 u32))

theorem relPtr_advBy {a : Codec α} : AdvBy (relPtr a) 8 := by
  intro b p v p' h
  simp only [relPtr] at h
  split at h
  · cases h
  · rename_i off q hr
    obtain ⟨h1, _, rfl⟩ := readLe_ok hr
    repeat' (split at h)
    all_goals first | (cases h; exact ⟨rfl, by omega⟩) | cases h
instance : Adv (relPtr a) := ⟨8, fun _ => rfl, by decide, relPtr_advBy⟩

theorem absPtr_advBy {n} (hn : 0 < n) {a : Codec α} : AdvBy (absPtr n a) n := by
  intro b p v p' h
  simp only [absPtr] at h
  split at h
  · cases h
  · rename_i off q hr
    obtain ⟨h1, _, rfl⟩ := readLe_ok hr
    repeat' (split at h)
    all_goals first | (cases h; exact ⟨rfl, by omega⟩) | cases h
instance : Adv (absPtr 8 a) := ⟨8, fun _ => rfl, by decide, absPtr_advBy (by decide)⟩

theorem readArrayHeader_ok {b p s c q} (h : readArrayHeader b p = .ok (s, c, q)) :
    p + 16 ≤ b.length ∧ s = p + fromLe ((b.drop p).take 8) ∧ c = fromLe ((b.drop (p + 8)).take 8) ∧
      q = p + 16 ∧ s < 2 ^ 64 := by
  unfold readArrayHeader at h
  split at h
  · cases h
  · rename_i off p1 h1
    obtain ⟨x1, x2, rfl⟩ := readLe_ok h1
    split at h
    · cases h
    · rename_i count p2 h2
      obtain ⟨y1, y2, rfl⟩ := readLe_ok h2
      unfold absoluteOffsetChecked at h
      split at h
      · cases h
      · rename_i sp h3
        split at h3
        · cases h3
          cases h
          exact ⟨by omega, by rw [x2], y2, by omega, ‹_›⟩
        · cases h3

theorem array_advBy {a : Codec α} : AdvBy (array a) 16 := by
  intro b p v p' h
  simp only [array] at h
  split at h
  · cases h
  · rename_i s c q hr
    obtain ⟨h1, _, _, rfl, _⟩ := readArrayHeader_ok hr
    split at h
    · cases h
    · cases h; exact ⟨rfl, by omega⟩
instance : Adv (array a) := ⟨16, fun _ => rfl, by decide, array_advBy⟩

theorem byteBuffer_advBy : AdvBy byteBuffer 16 := by
  intro b p v p' h
  simp only [byteBuffer] at h
  split at h
  · cases h
  · rename_i s c q hr
    obtain ⟨h1, _, _, rfl, _⟩ := readArrayHeader_ok hr
    split at h
    · cases h
    · cases h; exact ⟨rfl, by omega⟩
instance : Adv byteBuffer := ⟨16, fun _ => rfl, by decide, byteBuffer_advBy⟩

theorem enum64_advBy {t : Tagged α} : AdvBy (enum64 t) 16 := by
  intro b p v p' h
  simp only [enum64] at h
  split at h
  · cases h
  · rename_i off q hr
    obtain ⟨h1, _, rfl⟩ := readLe_ok hr
    split at h
    · cases h
    · rename_i off q hr
      obtain ⟨h1, _, rfl⟩ := readLe_ok hr
      repeat' (split at h)
      all_goals first | (cases h; exact ⟨rfl, by omega⟩) | cases h
instance : Adv (enum64 t) := ⟨16, fun _ => rfl, by decide, enum64_advBy⟩

instance : Adv (ssbhStringN N) := inferInstanceAs (Adv (struct _ _))
instance : Adv ssbhString := inferInstanceAs (Adv (ssbhStringN _))
instance : Adv ssbhString8 := inferInstanceAs (Adv (ssbhStringN _))

/-- The elements of an array: their number, the end position, and that the last one starts inside the input. -/
theorem readElems_adv {a : Codec α} {k : Nat} (ha : AdvBy a k) : ∀ (n : Nat) (b : Bytes) (p : Nat) (vs : List α)
    (p' : Nat), readElems a n b p = .ok (vs, p') →
    vs.length = n ∧ p' = p + n * k ∧ (0 < n → p + (n - 1) * k < b.length)
  | 0, b, p, vs, p', h => by simp only [readElems, Except.ok.injEq, Prod.mk.injEq] at h; simp [← h.1, h.2]
  | n + 1, b, p, vs, p', h => by
    simp only [readElems] at h
    split at h
    · cases h
    · rename_i v p1 h1
      split at h
      · cases h
      · rename_i vs' p2 h2
        cases h
        obtain ⟨x1, x2⟩ := ha _ _ _ _ h1
        obtain ⟨y1, y2, y3⟩ := readElems_adv ha n b p1 vs' _ h2
        refine ⟨by simp [y1], by rw [y2, x1, Nat.succ_mul]; omega, fun _ => ?_⟩
        cases n with
        | zero => simpa using x2
        | succ n =>
          have := y3 (by omega)
          simp only [Nat.add_sub_cancel, Nat.succ_mul] at this ⊢
          omega

instance [hn : NeZero n] [ha : Adv a] : Adv (arrayN n a) := by
  have hn : 0 < n := Nat.pos_of_ne_zero hn.out
  obtain ⟨k, hk, hk0, ha⟩ := ha.adv
  refine ⟨n * k, fun v => by simp [arrayN, sliceSize_eq hk], Nat.mul_pos hn hk0, ?_⟩
  intro b p v p' h
  simp only [arrayN] at h
  split at h
  · cases h
  · rename_i vs q hr
    obtain ⟨h1, h2, h3⟩ := readElems_adv ha n b p vs q hr
    split at h
    · cases h
      exact ⟨h2, by have := h3 hn; omega⟩
    · contradiction

/-! ## The types of the formats -/

instance : Adv Vector3.codec := by unfold Vector3.codec; infer_instance
instance : Adv Matrix3x3.codec := by unfold Matrix3x3.codec; infer_instance
instance : Adv Vector4.codec := by unfold Vector4.codec; infer_instance
instance : Adv Color4f.codec := by unfold Color4f.codec; infer_instance
instance : Adv Matrix4x4.codec := by unfold Matrix4x4.codec; infer_instance
instance : Adv Nlst.V10Data.codec := by unfold Nlst.V10Data.codec; infer_instance
instance : Adv Shdr.ShaderStage.codec := by unfold Shdr.ShaderStage.codec; infer_instance
instance : Adv Shdr.Shader.codec := by unfold Shdr.Shader.codec; infer_instance
instance : Adv Shdr.V12Data.codec := by unfold Shdr.V12Data.codec; infer_instance
instance : Adv Modl.ModlEntry.codec := by unfold Modl.ModlEntry.codec; infer_instance
instance : Adv Modl.V17Data.codec := by unfold Modl.V17Data.codec; infer_instance
instance : Adv Skel.BillboardType.codec := by unfold Skel.BillboardType.codec; infer_instance
instance : Adv Skel.SkelEntryFlags.codec := by unfold Skel.SkelEntryFlags.codec; infer_instance
instance : Adv Skel.SkelBoneEntry.codec := by unfold Skel.SkelBoneEntry.codec; infer_instance
instance : Adv Skel.V10Data.codec := by unfold Skel.V10Data.codec; infer_instance
instance : Adv Hlpb.AimConstraint.codec := by unfold Hlpb.AimConstraint.codec; infer_instance
instance : Adv Hlpb.OrientConstraint.codec := by unfold Hlpb.OrientConstraint.codec; infer_instance
instance : Adv Hlpb.ConstraintType.codec := by unfold Hlpb.ConstraintType.codec; infer_instance
instance : Adv Hlpb.V11Data.codec := by unfold Hlpb.V11Data.codec; infer_instance
instance : Adv Nufx.ShaderStages.codec := by unfold Nufx.ShaderStages.codec; infer_instance
instance : Adv Nufx.MaterialParameter.codec := by unfold Nufx.MaterialParameter.codec; infer_instance
instance : Adv Nufx.ShaderProgramV0.codec := by unfold Nufx.ShaderProgramV0.codec; infer_instance
instance : Adv Nufx.UnkItem.codec := by unfold Nufx.UnkItem.codec; infer_instance
instance : Adv Nufx.NufxV0.codec := by unfold Nufx.NufxV0.codec; infer_instance
instance : Adv Nufx.VertexAttribute.codec := by unfold Nufx.VertexAttribute.codec; infer_instance
instance : Adv Nufx.ShaderProgramV1.codec := by unfold Nufx.ShaderProgramV1.codec; infer_instance
instance : Adv Nufx.NufxV1.codec := by unfold Nufx.NufxV1.codec; infer_instance
instance : Adv Anim.TrackTypeV1.codec := by unfold Anim.TrackTypeV1.codec; infer_instance
instance : Adv Anim.Property.codec := by unfold Anim.Property.codec; infer_instance
instance : Adv Anim.TrackV1.codec := by unfold Anim.TrackV1.codec; infer_instance
instance : Adv Anim.GroupType.codec := by unfold Anim.GroupType.codec; infer_instance
instance : Adv Anim.TrackTypeV2.codec := by unfold Anim.TrackTypeV2.codec; infer_instance
instance : Adv Anim.CompressionType.codec := by unfold Anim.CompressionType.codec; infer_instance
instance : Adv Anim.TrackFlags.codec := by unfold Anim.TrackFlags.codec; infer_instance
instance : Adv Anim.TransformFlags.codec := by unfold Anim.TransformFlags.codec; infer_instance
instance : Adv Anim.TrackV2.codec := by unfold Anim.TrackV2.codec; infer_instance
instance : Adv Anim.Node.codec := by unfold Anim.Node.codec; infer_instance
instance : Adv Anim.Group.codec := by unfold Anim.Group.codec; infer_instance
instance : Adv Anim.UnkSubItem.codec := by unfold Anim.UnkSubItem.codec; infer_instance
instance : Adv Anim.UnkItem1.codec := by unfold Anim.UnkItem1.codec; infer_instance
instance : Adv Anim.UnkItem2.codec := by unfold Anim.UnkItem2.codec; infer_instance
instance : Adv Anim.UnkData.codec := by unfold Anim.UnkData.codec; infer_instance
instance : Adv Anim.V12Data.codec := by unfold Anim.V12Data.codec; infer_instance
instance : Adv Anim.V20Data.codec := by unfold Anim.V20Data.codec; infer_instance
instance : Adv Anim.V21Data.codec := by unfold Anim.V21Data.codec; infer_instance
instance : Adv Mesh.BoundingSphere.codec := by unfold Mesh.BoundingSphere.codec; infer_instance
instance : Adv Mesh.BoundingVolume.codec := by unfold Mesh.BoundingVolume.codec; infer_instance
instance : Adv Mesh.OrientedBoundingBox.codec := by unfold Mesh.OrientedBoundingBox.codec; infer_instance
instance : Adv Mesh.BoundingInfo.codec := by unfold Mesh.BoundingInfo.codec; infer_instance
instance : Adv Mesh.DrawElementType.codec := by unfold Mesh.DrawElementType.codec; infer_instance
instance : Adv Mesh.DepthFlags.codec := by unfold Mesh.DepthFlags.codec; infer_instance
instance {A : Type} {aC : Codec A} [Adv aC] : Adv (Mesh.MeshObject.codec aC) := by unfold Mesh.MeshObject.codec; infer_instance
instance : Adv Mesh.RiggingFlags.codec := by unfold Mesh.RiggingFlags.codec; infer_instance
instance {W2 : Type} {w2C : Codec W2} [Adv w2C] : Adv (Mesh.BoneBuffer.codec w2C) := by unfold Mesh.BoneBuffer.codec; infer_instance
instance {W3 : Type} {w3C : Codec W3} [Adv w3C] : Adv (Mesh.RiggingGroup.codec w3C) := by unfold Mesh.RiggingGroup.codec; infer_instance
instance {A : Type} {W1 : Type} {aC : Codec A} {w1C : Codec W1} [Adv aC] [Adv w1C] : Adv (Mesh.MeshInner.codec aC w1C) := by unfold Mesh.MeshInner.codec; infer_instance
instance : Adv Mesh.AttributeUsageV8.codec := by unfold Mesh.AttributeUsageV8.codec; infer_instance
instance : Adv Mesh.AttributeDataTypeV8.codec := by unfold Mesh.AttributeDataTypeV8.codec; infer_instance
instance : Adv Mesh.AttributeV8.codec := by unfold Mesh.AttributeV8.codec; infer_instance
instance : Adv Mesh.VertexWeightV8.codec := by unfold Mesh.VertexWeightV8.codec; infer_instance
instance : Adv Mesh.AttributeUsageV9.codec := by unfold Mesh.AttributeUsageV9.codec; infer_instance
instance : Adv Mesh.AttributeV9.codec := by unfold Mesh.AttributeV9.codec; infer_instance
instance : Adv Mesh.AttributeDataTypeV10.codec := by unfold Mesh.AttributeDataTypeV10.codec; infer_instance
instance : Adv Mesh.AttributeV10.codec := by unfold Mesh.AttributeV10.codec; infer_instance
instance : Adv Matl.ParamId.codec := by unfold Matl.ParamId.codec; infer_instance
instance : Adv Matl.WrapMode.codec := by unfold Matl.WrapMode.codec; infer_instance
instance : Adv Matl.MinFilter.codec := by unfold Matl.MinFilter.codec; infer_instance
instance : Adv Matl.MagFilter.codec := by unfold Matl.MagFilter.codec; infer_instance
instance : Adv Matl.FilteringType.codec := by unfold Matl.FilteringType.codec; infer_instance
instance : Adv Matl.MaxAnisotropy.codec := by unfold Matl.MaxAnisotropy.codec; infer_instance
instance : Adv Matl.Sampler.codec := by unfold Matl.Sampler.codec; infer_instance
instance : Adv Matl.UvTransform.codec := by unfold Matl.UvTransform.codec; infer_instance
instance : Adv Matl.BlendFactor.codec := by unfold Matl.BlendFactor.codec; infer_instance
instance : Adv Matl.BlendOperation.codec := by unfold Matl.BlendOperation.codec; infer_instance
instance : Adv Matl.BlendStateV15.codec := by unfold Matl.BlendStateV15.codec; infer_instance
instance : Adv Matl.CullMode.codec := by unfold Matl.CullMode.codec; infer_instance
instance : Adv Matl.RasterizerStateV15.codec := by unfold Matl.RasterizerStateV15.codec; infer_instance
instance : Adv Matl.AttributeV15.codec := by unfold Matl.AttributeV15.codec; infer_instance
instance : Adv Matl.MatlEntryV15.codec := by unfold Matl.MatlEntryV15.codec; infer_instance
instance : Adv Matl.FillMode.codec := by unfold Matl.FillMode.codec; infer_instance
instance : Adv Matl.AttributeV16.codec := by unfold Matl.AttributeV16.codec; infer_instance
instance : Adv Matl.MatlEntryV16.codec := by unfold Matl.MatlEntryV16.codec; infer_instance
instance : Adv Matl.V15Data.codec := by unfold Matl.V15Data.codec; infer_instance
instance : Adv Matl.V16Data.codec := by unfold Matl.V16Data.codec; infer_instance
instance : Adv Nrpd.UnkFormat.codec := by unfold Nrpd.UnkFormat.codec; infer_instance
instance : Adv Nrpd.Framebuffer0.codec := by unfold Nrpd.Framebuffer0.codec; infer_instance
instance : Adv Nrpd.Framebuffer1.codec := by unfold Nrpd.Framebuffer1.codec; infer_instance
instance : Adv Nrpd.UniformBuffer.codec := by unfold Nrpd.UniformBuffer.codec; infer_instance
instance : Adv Nrpd.Framebuffer3.codec := by unfold Nrpd.Framebuffer3.codec; infer_instance
instance : Adv Nrpd.Framebuffer4.codec := by unfold Nrpd.Framebuffer4.codec; infer_instance
instance : Adv Nrpd.NrpdSampler.codec := by unfold Nrpd.NrpdSampler.codec; infer_instance
instance : Adv Nrpd.NrpdRasterizerState.codec := by unfold Nrpd.NrpdRasterizerState.codec; infer_instance
instance : Adv Nrpd.DepthState.codec := by unfold Nrpd.DepthState.codec; infer_instance
instance : Adv Nrpd.NrpdBlendState.codec := by unfold Nrpd.NrpdBlendState.codec; infer_instance
instance : Adv Nrpd.RenderPassData0.codec := by unfold Nrpd.RenderPassData0.codec; infer_instance
instance : Adv Nrpd.RenderPassData1.codec := by unfold Nrpd.RenderPassData1.codec; infer_instance
instance : Adv Nrpd.RenderPassData2.codec := by unfold Nrpd.RenderPassData2.codec; infer_instance
instance : Adv Nrpd.Unk8Data.codec := by unfold Nrpd.Unk8Data.codec; infer_instance
instance : Adv Nrpd.RenderPassData3.codec := by unfold Nrpd.RenderPassData3.codec; infer_instance
instance : Adv Nrpd.RenderPassData8.codec := by unfold Nrpd.RenderPassData8.codec; infer_instance
instance : Adv Nrpd.ColorClear.codec := by unfold Nrpd.ColorClear.codec; infer_instance
instance : Adv Nrpd.DepthStencilClear.codec := by unfold Nrpd.DepthStencilClear.codec; infer_instance
instance : Adv Nrpd.Viewport.codec := by unfold Nrpd.Viewport.codec; infer_instance
instance : Adv Nrpd.RenderPassData13.codec := by unfold Nrpd.RenderPassData13.codec; infer_instance
instance : Adv Nrpd.StringPair.codec := by unfold Nrpd.StringPair.codec; infer_instance
instance : Adv Nrpd.RenderPassData19.codec := by unfold Nrpd.RenderPassData19.codec; infer_instance
instance : Adv Nrpd.Unk3Data.codec := by unfold Nrpd.Unk3Data.codec; infer_instance
instance : Adv Nrpd.RenderPassContainer.codec := by unfold Nrpd.RenderPassContainer.codec; infer_instance
instance : Adv Nrpd.UnkItem20.codec := by unfold Nrpd.UnkItem20.codec; infer_instance
instance : Adv Nrpd.UnkItem21.codec := by unfold Nrpd.UnkItem21.codec; infer_instance
instance : Adv Nrpd.UnkItem22.codec := by unfold Nrpd.UnkItem22.codec; infer_instance
instance : Adv Nrpd.UnkItem24.codec := by unfold Nrpd.UnkItem24.codec; infer_instance
instance : Adv Nrpd.UnkItem3.codec := by unfold Nrpd.UnkItem3.codec; infer_instance
instance : Adv Nrpd.UnkItem1.codec := by unfold Nrpd.UnkItem1.codec; infer_instance
instance : Adv Nrpd.V16Data.codec := by unfold Nrpd.V16Data.codec; infer_instance

end Verif
