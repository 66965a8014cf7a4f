import Verif.Lib.EnumNames
import Verif.Json.ShapesSame
import Mathlib.Data.List.Nodup

/-!
# C79: names and numbers of enums

The specification is the table of names and numbers of each enum (`numbers`, `Verif/Json/Shapes.lean`).
-/

namespace Verif.Props
open Verif

/-- The functions of an enum agree with the table of names and numbers, with the names of the JSON and with each other. -/
structure Named (E : NamedEnum tags) (json : JCodec (ReprEnum tags)) (table : List (String × Nat)) : Prop where
  /-- The text of a variant is its name. -/
  shown : ∀ v s, E.display v = s ↔ (s, v.tag) ∈ table
  /-- Exactly the names are accepted. -/
  parsed : ∀ s v, E.fromStr s = some v ↔ (s, v.tag) ∈ table
  /-- The text of a variant is accepted as this variant and as no other. -/
  round_trip : ∀ s v, E.fromStr s = some v ↔ E.display v = s
  /-- A number gives the variant with this number in files. -/
  numbered : ∀ n v, E.fromRepr n = some v ↔ v.tag = n.toNat
  /-- Other numbers give none. -/
  known : ∀ n, (E.fromRepr n).isSome ↔ ∃ s, (s, n.toNat) ∈ table
  /-- Every variant is listed once. -/
  listed : ∀ v, E.iter.count v = 1
  /-- There is one variant for each line of the table. -/
  total : E.iter.length = table.length
  /-- The text is the one in JSON documents. -/
  json : ∀ v, json.ser v = .str (E.display v)

theorem named {tags : List Nat} {names : List String} {table : List (String × Nat)} (hn : names.Nodup) (ht : tags.Nodup)
    (hl : tags.length = names.length) (hz : names.zip tags = table) :
    Named (⟨names⟩ : NamedEnum tags) (JCodec.enumNames names tags) table := by
  have hshown : ∀ v s, (⟨names⟩ : NamedEnum tags).display v = s ↔ (s, v.tag) ∈ table := by
    intro v s
    have := JNumbers.of hn ht hl hz v s
    simp only [JCodec.enumNames, J.str.injEq] at this
    exact this
  have hparsed : ∀ s v, (⟨names⟩ : NamedEnum tags).fromStr s = some v ↔ (s, v.tag) ∈ table := by
    intro s v
    rw [← hz]
    simp only [NamedEnum.fromStr]
    constructor
    · intro h
      rw [Option.bind_eq_some_iff] at h
      obtain ⟨t, h1, h2⟩ := h
      simp only [ReprEnum.ofNat] at h2
      split at h2
      · cases h2
        exact mem_of_lookup h1
      · cases h2
    · intro h
      rw [lookup_of_mem_zip hn h, Option.bind_some, ReprEnum.ofNat, dif_pos v.mem]
  refine ⟨hshown, hparsed, fun s v => (hparsed s v).trans (hshown v s).symm, ?_, ?_, ?_, ?_, fun _ => rfl⟩
  · intro n v
    simp only [NamedEnum.fromRepr, ReprEnum.ofNat]
    constructor
    · intro h
      split at h
      · cases h; rfl
      · cases h
    · intro h
      rw [dif_pos (h ▸ v.mem)]
      cases v
      cases h
      rfl
  · intro n
    simp only [NamedEnum.fromRepr, ReprEnum.ofNat]
    have hm : n.toNat ∈ tags ↔ ∃ s, (s, n.toNat) ∈ table := by
      have : tags = table.map (·.2) := by rw [← hz]; exact (List.map_snd_zip (by omega)).symm
      rw [show n.toNat ∈ tags ↔ n.toNat ∈ table.map (·.2) by rw [← this], List.mem_map]
      exact ⟨fun ⟨⟨s, m⟩, h1, h2⟩ => ⟨s, h2 ▸ h1⟩, fun ⟨s, h⟩ => ⟨_, h, rfl⟩⟩
    rw [← hm]
    split <;> simp_all
  · intro v
    refine List.count_eq_one_of_mem ?_ ?_
    · rw [NamedEnum.iter]
      refine List.Nodup.map ?_ (List.nodup_attach.mpr ht)
      intro a b h
      cases a; cases b; cases h; rfl
    · rw [NamedEnum.iter, List.mem_map]
      exact ⟨⟨v.tag, v.mem⟩, List.mem_attach _ _, rfl⟩
  · rw [NamedEnum.iter, List.length_map, List.length_attach, ← hz, List.length_zip]
    omega

/-- C79: for all enums with these functions. -/
theorem C79_enums :
    Named Matl.ParamId.strum Matl.ParamId.json Matl.ParamId.numbers ∧
    Named Matl.FillMode.strum Matl.FillMode.json Matl.FillMode.numbers ∧
    Named Matl.CullMode.strum Matl.CullMode.json Matl.CullMode.numbers ∧
    Named Matl.WrapMode.strum Matl.WrapMode.json Matl.WrapMode.numbers ∧
    Named Matl.MinFilter.strum Matl.MinFilter.json Matl.MinFilter.numbers ∧
    Named Matl.MagFilter.strum Matl.MagFilter.json Matl.MagFilter.numbers ∧
    Named Matl.FilteringType.strum Matl.FilteringType.json Matl.FilteringType.numbers ∧
    Named Matl.MaxAnisotropy.strum Matl.MaxAnisotropy.json Matl.MaxAnisotropy.numbers ∧
    Named Matl.BlendFactor.strum Matl.BlendFactor.json Matl.BlendFactor.numbers ∧
    Named Matl.BlendOperation.strum Matl.BlendOperation.json Matl.BlendOperation.numbers ∧
    Named Anim.GroupType.strum Anim.GroupType.json Anim.GroupType.numbers ∧
    Named Skel.BillboardType.strum Skel.BillboardType.json Skel.BillboardType.numbers ∧
    Named Nrpd.UnkFormat.strum Nrpd.UnkFormat.json Nrpd.UnkFormat.numbers :=
  ⟨named Matl.ParamId.names_nodup List.nodup_range (by decide +kernel) (by decide +kernel),
    named (by decide +kernel) (by decide) rfl rfl,
    named (by decide +kernel) (by decide) rfl rfl,
    named (by decide +kernel) (by decide) rfl rfl,
    named (by decide +kernel) (by decide) rfl rfl,
    named (by decide +kernel) (by decide) rfl rfl,
    named (by decide +kernel) (by decide) rfl rfl,
    named (by decide +kernel) (by decide) rfl rfl,
    named (by decide +kernel) (by decide) rfl rfl,
    named (by decide +kernel) (by decide) rfl rfl,
    named (by decide +kernel) (by decide) rfl rfl,
    named (by decide +kernel) (by decide) rfl rfl,
    named (by decide +kernel) (by decide) rfl rfl⟩

/-- C79: the names of the variants in this model are the names of the variants. -/
theorem C79_constants :
    Anim.TrackTypeV1.json.ser Anim.TrackTypeV1.Transform = .str "Transform" ∧
    Anim.TrackTypeV1.json.ser Anim.TrackTypeV1.UvTransform = .str "UvTransform" ∧
    Anim.TrackTypeV1.json.ser Anim.TrackTypeV1.Visibility = .str "Visibility" ∧
    Anim.GroupType.json.ser Anim.GroupType.Transform = .str "Transform" ∧
    Anim.GroupType.json.ser Anim.GroupType.Visibility = .str "Visibility" ∧
    Anim.GroupType.json.ser Anim.GroupType.Material = .str "Material" ∧
    Anim.GroupType.json.ser Anim.GroupType.Camera = .str "Camera" ∧
    Anim.TrackTypeV2.json.ser Anim.TrackTypeV2.Transform = .str "Transform" ∧
    Anim.TrackTypeV2.json.ser Anim.TrackTypeV2.UvTransform = .str "UvTransform" ∧
    Anim.TrackTypeV2.json.ser Anim.TrackTypeV2.Float = .str "Float" ∧
    Anim.TrackTypeV2.json.ser Anim.TrackTypeV2.PatternIndex = .str "PatternIndex" ∧
    Anim.TrackTypeV2.json.ser Anim.TrackTypeV2.Boolean = .str "Boolean" ∧
    Anim.TrackTypeV2.json.ser Anim.TrackTypeV2.Vector4 = .str "Vector4" ∧
    Anim.CompressionType.json.ser Anim.CompressionType.Direct = .str "Direct" ∧
    Anim.CompressionType.json.ser Anim.CompressionType.ConstTransform = .str "ConstTransform" ∧
    Anim.CompressionType.json.ser Anim.CompressionType.Compressed = .str "Compressed" ∧
    Anim.CompressionType.json.ser Anim.CompressionType.Constant = .str "Constant" ∧
    Hlpb.ConstraintType.json.ser Hlpb.ConstraintType.Aim = .str "Aim" ∧
    Hlpb.ConstraintType.json.ser Hlpb.ConstraintType.Orient = .str "Orient" ∧
    Matl.WrapMode.json.ser Matl.WrapMode.Repeat = .str "Repeat" ∧
    Matl.WrapMode.json.ser Matl.WrapMode.ClampToEdge = .str "ClampToEdge" ∧
    Matl.WrapMode.json.ser Matl.WrapMode.MirroredRepeat = .str "MirroredRepeat" ∧
    Matl.WrapMode.json.ser Matl.WrapMode.ClampToBorder = .str "ClampToBorder" ∧
    Matl.MinFilter.json.ser Matl.MinFilter.Nearest = .str "Nearest" ∧
    Matl.MinFilter.json.ser Matl.MinFilter.LinearMipmapLinear = .str "LinearMipmapLinear" ∧
    Matl.MinFilter.json.ser Matl.MinFilter.LinearMipmapLinear2 = .str "LinearMipmapLinear2" ∧
    Matl.MagFilter.json.ser Matl.MagFilter.Nearest = .str "Nearest" ∧
    Matl.MagFilter.json.ser Matl.MagFilter.Linear = .str "Linear" ∧
    Matl.MagFilter.json.ser Matl.MagFilter.Linear2 = .str "Linear2" ∧
    Matl.FilteringType.json.ser Matl.FilteringType.Default = .str "Default" ∧
    Matl.FilteringType.json.ser Matl.FilteringType.Default2 = .str "Default2" ∧
    Matl.FilteringType.json.ser Matl.FilteringType.AnisotropicFiltering = .str "AnisotropicFiltering" ∧
    Matl.MaxAnisotropy.json.ser Matl.MaxAnisotropy.One = .str "One" ∧
    Matl.MaxAnisotropy.json.ser Matl.MaxAnisotropy.Two = .str "Two" ∧
    Matl.MaxAnisotropy.json.ser Matl.MaxAnisotropy.Four = .str "Four" ∧
    Matl.MaxAnisotropy.json.ser Matl.MaxAnisotropy.Eight = .str "Eight" ∧
    Matl.MaxAnisotropy.json.ser Matl.MaxAnisotropy.Sixteen = .str "Sixteen" ∧
    Matl.BlendFactor.json.ser Matl.BlendFactor.Zero = .str "Zero" ∧
    Matl.BlendFactor.json.ser Matl.BlendFactor.One = .str "One" ∧
    Matl.BlendFactor.json.ser Matl.BlendFactor.SourceAlpha = .str "SourceAlpha" ∧
    Matl.BlendFactor.json.ser Matl.BlendFactor.DestinationAlpha = .str "DestinationAlpha" ∧
    Matl.BlendFactor.json.ser Matl.BlendFactor.SourceColor = .str "SourceColor" ∧
    Matl.BlendFactor.json.ser Matl.BlendFactor.DestinationColor = .str "DestinationColor" ∧
    Matl.BlendFactor.json.ser Matl.BlendFactor.OneMinusSourceAlpha = .str "OneMinusSourceAlpha" ∧
    Matl.BlendFactor.json.ser Matl.BlendFactor.OneMinusDestinationAlpha = .str "OneMinusDestinationAlpha" ∧
    Matl.BlendFactor.json.ser Matl.BlendFactor.OneMinusSourceColor = .str "OneMinusSourceColor" ∧
    Matl.BlendFactor.json.ser Matl.BlendFactor.OneMinusDestinationColor = .str "OneMinusDestinationColor" ∧
    Matl.BlendFactor.json.ser Matl.BlendFactor.SourceAlphaSaturate = .str "SourceAlphaSaturate" ∧
    Matl.BlendOperation.json.ser Matl.BlendOperation.Add = .str "Add" ∧
    Matl.BlendOperation.json.ser Matl.BlendOperation.Subtract = .str "Subtract" ∧
    Matl.BlendOperation.json.ser Matl.BlendOperation.ReverseSubtract = .str "ReverseSubtract" ∧
    Matl.BlendOperation.json.ser Matl.BlendOperation.Minimum = .str "Minimum" ∧
    Matl.BlendOperation.json.ser Matl.BlendOperation.Maximum = .str "Maximum" ∧
    Matl.CullMode.json.ser Matl.CullMode.Back = .str "Back" ∧
    Matl.CullMode.json.ser Matl.CullMode.Front = .str "Front" ∧
    Matl.CullMode.json.ser Matl.CullMode.Disabled = .str "Disabled" ∧
    Matl.FillMode.json.ser Matl.FillMode.Line = .str "Line" ∧
    Matl.FillMode.json.ser Matl.FillMode.Solid = .str "Solid" ∧
    Mesh.DrawElementType.json.ser Mesh.DrawElementType.UnsignedShort = .str "UnsignedShort" ∧
    Mesh.DrawElementType.json.ser Mesh.DrawElementType.UnsignedInt = .str "UnsignedInt" ∧
    Mesh.AttributeUsageV8.json.ser Mesh.AttributeUsageV8.Position = .str "Position" ∧
    Mesh.AttributeUsageV8.json.ser Mesh.AttributeUsageV8.Normal = .str "Normal" ∧
    Mesh.AttributeUsageV8.json.ser Mesh.AttributeUsageV8.Tangent = .str "Tangent" ∧
    Mesh.AttributeUsageV8.json.ser Mesh.AttributeUsageV8.TextureCoordinate = .str "TextureCoordinate" ∧
    Mesh.AttributeUsageV8.json.ser Mesh.AttributeUsageV8.ColorSet = .str "ColorSet" ∧
    Mesh.AttributeDataTypeV8.json.ser Mesh.AttributeDataTypeV8.Float3 = .str "Float3" ∧
    Mesh.AttributeDataTypeV8.json.ser Mesh.AttributeDataTypeV8.Float4 = .str "Float4" ∧
    Mesh.AttributeDataTypeV8.json.ser Mesh.AttributeDataTypeV8.HalfFloat4 = .str "HalfFloat4" ∧
    Mesh.AttributeDataTypeV8.json.ser Mesh.AttributeDataTypeV8.Float2 = .str "Float2" ∧
    Mesh.AttributeDataTypeV8.json.ser Mesh.AttributeDataTypeV8.Byte4 = .str "Byte4" ∧
    Mesh.AttributeUsageV9.json.ser Mesh.AttributeUsageV9.Position = .str "Position" ∧
    Mesh.AttributeUsageV9.json.ser Mesh.AttributeUsageV9.Normal = .str "Normal" ∧
    Mesh.AttributeUsageV9.json.ser Mesh.AttributeUsageV9.Binormal = .str "Binormal" ∧
    Mesh.AttributeUsageV9.json.ser Mesh.AttributeUsageV9.Tangent = .str "Tangent" ∧
    Mesh.AttributeUsageV9.json.ser Mesh.AttributeUsageV9.TextureCoordinate = .str "TextureCoordinate" ∧
    Mesh.AttributeUsageV9.json.ser Mesh.AttributeUsageV9.ColorSet = .str "ColorSet" ∧
    Mesh.AttributeDataTypeV10.json.ser Mesh.AttributeDataTypeV10.Float3 = .str "Float3" ∧
    Mesh.AttributeDataTypeV10.json.ser Mesh.AttributeDataTypeV10.Byte4 = .str "Byte4" ∧
    Mesh.AttributeDataTypeV10.json.ser Mesh.AttributeDataTypeV10.Float4 = .str "Float4" ∧
    Mesh.AttributeDataTypeV10.json.ser Mesh.AttributeDataTypeV10.HalfFloat4 = .str "HalfFloat4" ∧
    Mesh.AttributeDataTypeV10.json.ser Mesh.AttributeDataTypeV10.Float2 = .str "Float2" ∧
    Mesh.AttributeDataTypeV10.json.ser Mesh.AttributeDataTypeV10.HalfFloat2 = .str "HalfFloat2" ∧
    Nrpd.UnkFormat.json.ser Nrpd.UnkFormat.UnkFormat0 = .str "UnkFormat0" ∧
    Nrpd.UnkFormat.json.ser Nrpd.UnkFormat.UnkFormat1 = .str "UnkFormat1" ∧
    Nrpd.UnkFormat.json.ser Nrpd.UnkFormat.UnkFormat2 = .str "UnkFormat2" ∧
    Nrpd.UnkFormat.json.ser Nrpd.UnkFormat.UnkFormat3 = .str "UnkFormat3" ∧
    Nrpd.UnkFormat.json.ser Nrpd.UnkFormat.UnkFormat4 = .str "UnkFormat4" ∧
    Nrpd.UnkFormat.json.ser Nrpd.UnkFormat.UnkFormat5 = .str "UnkFormat5" ∧
    Nrpd.UnkFormat.json.ser Nrpd.UnkFormat.UnkFormat6 = .str "UnkFormat6" ∧
    Nrpd.UnkFormat.json.ser Nrpd.UnkFormat.UnkFormat7 = .str "UnkFormat7" ∧
    Nrpd.UnkFormat.json.ser Nrpd.UnkFormat.UnkFormat8 = .str "UnkFormat8" ∧
    Nrpd.UnkFormat.json.ser Nrpd.UnkFormat.UnkFormat9 = .str "UnkFormat9" ∧
    Nrpd.UnkFormat.json.ser Nrpd.UnkFormat.UnkFormat10 = .str "UnkFormat10" ∧
    Nrpd.UnkFormat.json.ser Nrpd.UnkFormat.UnkFormat11 = .str "UnkFormat11" ∧
    Shdr.ShaderStage.json.ser Shdr.ShaderStage.Vertex = .str "Vertex" ∧
    Shdr.ShaderStage.json.ser Shdr.ShaderStage.Geometry = .str "Geometry" ∧
    Shdr.ShaderStage.json.ser Shdr.ShaderStage.Fragment = .str "Fragment" ∧
    Shdr.ShaderStage.json.ser Shdr.ShaderStage.Compute = .str "Compute" ∧
    Skel.BillboardType.json.ser Skel.BillboardType.Disabled = .str "Disabled" ∧
    Skel.BillboardType.json.ser Skel.BillboardType.XAxisViewPointAligned = .str "XAxisViewPointAligned" ∧
    Skel.BillboardType.json.ser Skel.BillboardType.YAxisViewPointAligned = .str "YAxisViewPointAligned" ∧
    Skel.BillboardType.json.ser Skel.BillboardType.Unk3 = .str "Unk3" ∧
    Skel.BillboardType.json.ser Skel.BillboardType.XYAxisViewPointAligned = .str "XYAxisViewPointAligned" ∧
    Skel.BillboardType.json.ser Skel.BillboardType.YAxisViewPlaneAligned = .str "YAxisViewPlaneAligned" ∧
    Skel.BillboardType.json.ser Skel.BillboardType.XYAxisViewPlaneAligned = .str "XYAxisViewPlaneAligned" :=
  ⟨rfl, rfl, rfl, rfl, rfl, rfl, rfl, rfl, rfl, rfl, rfl, rfl, rfl, rfl, rfl, rfl, rfl, rfl, rfl, rfl, rfl, rfl, rfl, rfl, rfl, rfl, rfl, rfl, rfl, rfl, rfl, rfl, rfl, rfl, rfl, rfl, rfl, rfl, rfl, rfl, rfl, rfl, rfl, rfl, rfl, rfl, rfl, rfl, rfl, rfl, rfl, rfl, rfl, rfl, rfl, rfl, rfl, rfl, rfl, rfl, rfl, rfl, rfl, rfl, rfl, rfl, rfl, rfl, rfl, rfl, rfl, rfl, rfl, rfl, rfl, rfl, rfl, rfl, rfl, rfl, rfl, rfl, rfl, rfl, rfl, rfl, rfl, rfl, rfl, rfl, rfl, rfl, rfl, rfl, rfl, rfl, rfl, rfl, rfl, rfl, rfl, rfl, rfl, rfl, rfl⟩

example : Matl.ParamId.strum.fromStr "CustomVector8" = Matl.ParamId.strum.fromRepr 160 ∧
    Matl.ParamId.strum.fromStr "customvector8" = none ∧ Matl.ParamId.strum.fromRepr 366 = none ∧
    (Matl.MaxAnisotropy.strum.fromRepr 16).map Matl.MaxAnisotropy.strum.display = some "Sixteen" := by
  decide +kernel

end Verif.Props
