import Verif.Json.DataFormats
import Verif.Json.Finite
import Verif.Json.FormatLaws
/-!
# The JSON of the data types keeps everything finite

Written by tools/gen_json_data.py from the Rust definitions.
-/

namespace Verif

set_option linter.unusedSimpArgs false

theorem f32_law : JLaw JCodec.f32 ⟨fun x => !finite x, finite, id⟩ :=
  JLaw.f32.congr (fun v => by simp [JSpec.float, finite]) (fun _ => rfl) (fun _ => rfl)

theorem all_true (l : List α) : (l.all fun _ => true) = true := by simp

theorem usize_law : JLaw JCodec.usize (.exact isUsize) := JLaw.usize

theorem Vector3.json_exact : JLaw Vector3.json (.exact Vector3.finite) :=
  Vector3.json_law.exact (fun _ => rfl) (fun v => by simp [Vector3.kept, Vector3.finite, JSpec.float, Verif.finite, Bool.and_assoc]) (fun _ => rfl)

theorem Vector4.json_exact : JLaw Vector4.json (.exact Vector4.finite) :=
  Vector4.json_law.exact (fun _ => rfl) (fun v => by simp [Vector4.kept, Vector4.finite, JSpec.float, Verif.finite, Bool.and_assoc]) (fun _ => rfl)

theorem Color4f.json_exact : JLaw Color4f.json (.exact Color4f.finite) :=
  Color4f.json_law.exact (fun _ => rfl) (fun v => by simp [Color4f.kept, Color4f.finite, JSpec.float, Verif.finite, Bool.and_assoc]) (fun _ => rfl)

theorem Matl.UvTransform.json_exact : JLaw Matl.UvTransform.json (.exact Matl.UvTransform.finite) :=
  Matl.UvTransform.json_law.exact (fun _ => rfl) (fun v => by simp [Matl.UvTransform.kept, Matl.UvTransform.finite, JSpec.float, Verif.finite, Bool.and_assoc]) (fun _ => rfl)

theorem Mesh.BoundingSphere.json_exact : JLaw Mesh.BoundingSphere.json (.exact Mesh.BoundingSphere.finite) :=
  Mesh.BoundingSphere.json_law.exact (fun _ => rfl) (fun v => by simp [Mesh.BoundingSphere.kept, Mesh.BoundingSphere.finite, Vector3.kept, Vector3.finite, JSpec.float, Verif.finite, Bool.and_assoc]) (fun _ => rfl)

theorem ModlData.ModlEntryData.json_law : JLaw ModlData.ModlEntryData.json (.exact (fun _ => true)) :=
  (JLaw.struct (.and (.field "mesh_object_name" JLaw.string) (.and (.field "mesh_object_subindex" JLaw.u64) (.field "material_label" JLaw.string))) (show ["mesh_object_name", "mesh_object_subindex", "material_label"].Nodup by decide) (fun _ => rfl)).exact (fun _ => rfl)
    (fun v => by simp [JSpec.fields, JSpec.both, JSpec.plain, JSpec.exact, JSpec.list, JSpec.vector, JSpec.optional, all_true, Bool.and_assoc]) (fun v => by simp [JSpec.fields, JSpec.both, JSpec.plain, JSpec.exact, JSpec.list, JSpec.vector, JSpec.optional, all_true])

theorem ModlData.json_law : JLaw ModlData.json (.exact (fun _ => true)) :=
  (JLaw.struct (.and (.field "major_version" JLaw.u16) (.and (.field "minor_version" JLaw.u16) (.and (.field "model_name" JLaw.string) (.and (.field "skeleton_file_name" JLaw.string) (.and (.field "material_file_names" JLaw.string.vec) (.and (.field "animation_file_name" (JLaw.optional (fin := fun _ => true) JLaw.string)) (.and (.field "mesh_file_name" JLaw.string) (.field "entries" ModlData.ModlEntryData.json_law.vec)))))))) (show ["major_version", "minor_version", "model_name", "skeleton_file_name", "material_file_names", "animation_file_name", "mesh_file_name", "entries"].Nodup by decide) (fun _ => rfl)).exact (fun _ => rfl)
    (fun v => by simp [JSpec.fields, JSpec.both, JSpec.plain, JSpec.exact, JSpec.list, JSpec.vector, JSpec.optional, all_true, Bool.and_assoc]) (fun v => by simp [JSpec.fields, JSpec.both, JSpec.plain, JSpec.exact, JSpec.list, JSpec.vector, JSpec.optional, all_true])

theorem HlpbData.AimConstraintData.json_law : JLaw HlpbData.AimConstraintData.json (.exact HlpbData.AimConstraintData.finite) :=
  (JLaw.struct (.and (.field "name" JLaw.string) (.and (.field "aim_bone_name1" JLaw.string) (.and (.field "aim_bone_name2" JLaw.string) (.and (.field "aim_type1" JLaw.string) (.and (.field "aim_type2" JLaw.string) (.and (.field "target_bone_name1" JLaw.string) (.and (.field "target_bone_name2" JLaw.string) (.and (.field "unk1" JLaw.u32) (.and (.field "unk2" JLaw.u32) (.and (.field "aim" Vector3.json_exact) (.and (.field "up" Vector3.json_exact) (.and (.field "quat1" Vector4.json_exact) (.field "quat2" Vector4.json_exact))))))))))))) (show ["name", "aim_bone_name1", "aim_bone_name2", "aim_type1", "aim_type2", "target_bone_name1", "target_bone_name2", "unk1", "unk2", "aim", "up", "quat1", "quat2"].Nodup by decide) (fun _ => rfl)).exact (fun _ => rfl)
    (fun v => by simp [JSpec.fields, JSpec.both, JSpec.plain, JSpec.exact, JSpec.list, JSpec.vector, JSpec.optional, all_true, HlpbData.AimConstraintData.finite, Bool.and_assoc]) (fun v => by simp [JSpec.fields, JSpec.both, JSpec.plain, JSpec.exact, JSpec.list, JSpec.vector, JSpec.optional, all_true])

theorem HlpbData.OrientConstraintData.json_law : JLaw HlpbData.OrientConstraintData.json (.exact HlpbData.OrientConstraintData.finite) :=
  (JLaw.struct (.and (.field "name" JLaw.string) (.and (.field "parent_bone_name1" JLaw.string) (.and (.field "parent_bone_name2" JLaw.string) (.and (.field "source_bone_name" JLaw.string) (.and (.field "target_bone_name" JLaw.string) (.and (.field "unk_type" JLaw.u32) (.and (.field "constraint_axes" Vector3.json_exact) (.and (.field "quat1" Vector4.json_exact) (.and (.field "quat2" Vector4.json_exact) (.and (.field "range_min" Vector3.json_exact) (.field "range_max" Vector3.json_exact))))))))))) (show ["name", "parent_bone_name1", "parent_bone_name2", "source_bone_name", "target_bone_name", "unk_type", "constraint_axes", "quat1", "quat2", "range_min", "range_max"].Nodup by decide) (fun _ => rfl)).exact (fun _ => rfl)
    (fun v => by simp [JSpec.fields, JSpec.both, JSpec.plain, JSpec.exact, JSpec.list, JSpec.vector, JSpec.optional, all_true, HlpbData.OrientConstraintData.finite, Bool.and_assoc]) (fun v => by simp [JSpec.fields, JSpec.both, JSpec.plain, JSpec.exact, JSpec.list, JSpec.vector, JSpec.optional, all_true])

theorem HlpbData.json_law : JLaw HlpbData.json (.exact HlpbData.finite) :=
  (JLaw.struct (.and (.field "major_version" JLaw.u16) (.and (.field "minor_version" JLaw.u16) (.and (.field "aim_constraints" HlpbData.AimConstraintData.json_law.vec) (.field "orient_constraints" HlpbData.OrientConstraintData.json_law.vec)))) (show ["major_version", "minor_version", "aim_constraints", "orient_constraints"].Nodup by decide) (fun _ => rfl)).exact (fun _ => rfl)
    (fun v => by simp [JSpec.fields, JSpec.both, JSpec.plain, JSpec.exact, JSpec.list, JSpec.vector, JSpec.optional, all_true, HlpbData.finite, Bool.and_assoc]) (fun v => by simp [JSpec.fields, JSpec.both, JSpec.plain, JSpec.exact, JSpec.list, JSpec.vector, JSpec.optional, all_true])

theorem MatlData.ParamData.json_law {c : JCodec α} {f : α → Bool} {s : JSpec α} (h : JLaw c s) (e2 : ∀ v, s.fin v = f v)
    (e3 : ∀ v, s.norm v = v) : JLaw (MatlData.ParamData.json c) (.exact (MatlData.ParamData.finite f)) :=
  (JLaw.struct (.and (.field "param_id" Matl.ParamId.json_law) (.field "data" h)) (show ["param_id", "data"].Nodup by decide)
    (fun _ => rfl)).exact (fun _ => rfl)
    (fun v => by simp [JSpec.fields, JSpec.both, Matl.ParamId.kept, JSpec.plain, MatlData.ParamData.finite, e2])
    (fun v => by simp [JSpec.fields, JSpec.both, Matl.ParamId.kept, JSpec.plain, e3])

theorem MatlData.maxAnisotropy_law : JLaw MatlData.maxAnisotropy .plain := by
  have h : JLaw Matl.MaxAnisotropy.json (.exact (fun _ => true)) := Matl.MaxAnisotropy.json_law
  exact (h.orNull Matl.MaxAnisotropy.One : JLaw (JCodec.orNull Matl.MaxAnisotropy.json Matl.MaxAnisotropy.One) _)

theorem MatlData.SamplerData.json_law : JLaw MatlData.SamplerData.json (.exact MatlData.SamplerData.finite) :=
  (JLaw.struct (.and (.fieldOr "wraps" (show JLaw Matl.WrapMode.json .plain from Matl.WrapMode.json_law)) (.and (.fieldOr "wrapt" (show JLaw Matl.WrapMode.json .plain from Matl.WrapMode.json_law)) (.and (.fieldOr "wrapr" (show JLaw Matl.WrapMode.json .plain from Matl.WrapMode.json_law)) (.and (.fieldOr "min_filter" (show JLaw Matl.MinFilter.json .plain from Matl.MinFilter.json_law)) (.and (.fieldOr "mag_filter" (show JLaw Matl.MagFilter.json .plain from Matl.MagFilter.json_law)) (.and (.fieldOr "border_color" Color4f.json_exact) (.and (.fieldOr "lod_bias" f32_law) (.fieldOr "max_anisotropy" MatlData.maxAnisotropy_law)))))))) (show ["wraps", "wrapt", "wrapr", "min_filter", "mag_filter", "border_color", "lod_bias", "max_anisotropy"].Nodup by decide) (fun _ => rfl)).exact (fun _ => rfl)
    (fun v => by simp [JSpec.fields, JSpec.both, JSpec.plain, JSpec.exact, JSpec.list, JSpec.vector, JSpec.optional, all_true, MatlData.SamplerData.finite, Bool.and_assoc]) (fun v => by simp [JSpec.fields, JSpec.both, JSpec.plain, JSpec.exact, JSpec.list, JSpec.vector, JSpec.optional, all_true])

theorem MatlData.BlendStateData.json_law : JLaw MatlData.BlendStateData.json (.exact (fun _ => true)) :=
  (JLaw.struct (.and (.fieldOr "source_color" (show JLaw Matl.BlendFactor.json .plain from Matl.BlendFactor.json_law)) (.and (.fieldOr "color_operation" (show JLaw Matl.BlendOperation.json .plain from Matl.BlendOperation.json_law)) (.and (.fieldOr "destination_color" (show JLaw Matl.BlendFactor.json .plain from Matl.BlendFactor.json_law)) (.and (.fieldOr "source_alpha" (show JLaw Matl.BlendFactor.json .plain from Matl.BlendFactor.json_law)) (.and (.fieldOr "alpha_operation" (show JLaw Matl.BlendOperation.json .plain from Matl.BlendOperation.json_law)) (.and (.fieldOr "destination_alpha" (show JLaw Matl.BlendFactor.json .plain from Matl.BlendFactor.json_law)) (.fieldOr "alpha_sample_to_coverage" JLaw.boolean))))))) (show ["source_color", "color_operation", "destination_color", "source_alpha", "alpha_operation", "destination_alpha", "alpha_sample_to_coverage"].Nodup by decide) (fun _ => rfl)).exact (fun _ => rfl)
    (fun v => by simp [JSpec.fields, JSpec.both, JSpec.plain, JSpec.exact, JSpec.list, JSpec.vector, JSpec.optional, all_true, Bool.and_assoc]) (fun v => by simp [JSpec.fields, JSpec.both, JSpec.plain, JSpec.exact, JSpec.list, JSpec.vector, JSpec.optional, all_true])

theorem MatlData.RasterizerStateData.json_law : JLaw MatlData.RasterizerStateData.json (.exact MatlData.RasterizerStateData.finite) :=
  (JLaw.struct (.and (.field "fill_mode" (show JLaw Matl.FillMode.json .plain from Matl.FillMode.json_law)) (.and (.field "cull_mode" (show JLaw Matl.CullMode.json .plain from Matl.CullMode.json_law)) (.field "depth_bias" f32_law))) (show ["fill_mode", "cull_mode", "depth_bias"].Nodup by decide) (fun _ => rfl)).exact (fun _ => rfl)
    (fun v => by simp [JSpec.fields, JSpec.both, JSpec.plain, JSpec.exact, JSpec.list, JSpec.vector, JSpec.optional, all_true, MatlData.RasterizerStateData.finite, Bool.and_assoc]) (fun v => by simp [JSpec.fields, JSpec.both, JSpec.plain, JSpec.exact, JSpec.list, JSpec.vector, JSpec.optional, all_true])

theorem MatlData.BlendStateParam.json_law : JLaw (MatlData.ParamData.json MatlData.BlendStateData.json) (.exact (fun _ => true)) :=
  MatlData.ParamData.json_law (f := (fun _ => true)) MatlData.BlendStateData.json_law (fun v => by simp [JSpec.fields, JSpec.both, JSpec.plain, JSpec.exact, JSpec.list, JSpec.vector, JSpec.optional, all_true]) (fun _ => rfl)

theorem MatlData.FloatParam.json_law : JLaw (MatlData.ParamData.json JCodec.f32) (.exact (MatlData.ParamData.finite Verif.finite)) :=
  MatlData.ParamData.json_law (f := Verif.finite) f32_law (fun v => by simp [JSpec.fields, JSpec.both, JSpec.plain, JSpec.exact, JSpec.list, JSpec.vector, JSpec.optional, all_true]) (fun _ => rfl)

theorem MatlData.BooleanParam.json_law : JLaw (MatlData.ParamData.json JCodec.boolean) (.exact (fun _ => true)) :=
  MatlData.ParamData.json_law (f := (fun _ => true)) JLaw.boolean (fun v => by simp [JSpec.fields, JSpec.both, JSpec.plain, JSpec.exact, JSpec.list, JSpec.vector, JSpec.optional, all_true]) (fun _ => rfl)

theorem MatlData.Vector4Param.json_law : JLaw (MatlData.ParamData.json Vector4.json) (.exact (MatlData.ParamData.finite Vector4.finite)) :=
  MatlData.ParamData.json_law (f := Vector4.finite) Vector4.json_exact (fun v => by simp [JSpec.fields, JSpec.both, JSpec.plain, JSpec.exact, JSpec.list, JSpec.vector, JSpec.optional, all_true]) (fun _ => rfl)

theorem MatlData.RasterizerStateParam.json_law : JLaw (MatlData.ParamData.json MatlData.RasterizerStateData.json) (.exact (MatlData.ParamData.finite MatlData.RasterizerStateData.finite)) :=
  MatlData.ParamData.json_law (f := MatlData.RasterizerStateData.finite) MatlData.RasterizerStateData.json_law (fun v => by simp [JSpec.fields, JSpec.both, JSpec.plain, JSpec.exact, JSpec.list, JSpec.vector, JSpec.optional, all_true]) (fun _ => rfl)

theorem MatlData.SamplerParam.json_law : JLaw (MatlData.ParamData.json MatlData.SamplerData.json) (.exact (MatlData.ParamData.finite MatlData.SamplerData.finite)) :=
  MatlData.ParamData.json_law (f := MatlData.SamplerData.finite) MatlData.SamplerData.json_law (fun v => by simp [JSpec.fields, JSpec.both, JSpec.plain, JSpec.exact, JSpec.list, JSpec.vector, JSpec.optional, all_true]) (fun _ => rfl)

theorem MatlData.TextureParam.json_law : JLaw (MatlData.ParamData.json JCodec.string) (.exact (fun _ => true)) :=
  MatlData.ParamData.json_law (f := (fun _ => true)) JLaw.string (fun v => by simp [JSpec.fields, JSpec.both, JSpec.plain, JSpec.exact, JSpec.list, JSpec.vector, JSpec.optional, all_true]) (fun _ => rfl)

theorem MatlData.UvTransformParam.json_law : JLaw (MatlData.ParamData.json Matl.UvTransform.json) (.exact (MatlData.ParamData.finite Matl.UvTransform.finite)) :=
  MatlData.ParamData.json_law (f := Matl.UvTransform.finite) Matl.UvTransform.json_exact (fun v => by simp [JSpec.fields, JSpec.both, JSpec.plain, JSpec.exact, JSpec.list, JSpec.vector, JSpec.optional, all_true]) (fun _ => rfl)

theorem MatlData.MatlEntryData.json_law : JLaw MatlData.MatlEntryData.json (.exact MatlData.MatlEntryData.finite) :=
  (JLaw.struct (.and (.field "material_label" JLaw.string) (.and (.field "shader_label" JLaw.string) (.and (.field "blend_states" MatlData.BlendStateParam.json_law.vec) (.and (.field "floats" MatlData.FloatParam.json_law.vec) (.and (.field "booleans" MatlData.BooleanParam.json_law.vec) (.and (.field "vectors" MatlData.Vector4Param.json_law.vec) (.and (.field "rasterizer_states" MatlData.RasterizerStateParam.json_law.vec) (.and (.field "samplers" MatlData.SamplerParam.json_law.vec) (.and (.field "textures" MatlData.TextureParam.json_law.vec) (.fieldOr "uv_transforms" MatlData.UvTransformParam.json_law.vec)))))))))) (show ["material_label", "shader_label", "blend_states", "floats", "booleans", "vectors", "rasterizer_states", "samplers", "textures", "uv_transforms"].Nodup by decide) (fun _ => rfl)).exact (fun _ => rfl)
    (fun v => by simp [JSpec.fields, JSpec.both, JSpec.plain, JSpec.exact, JSpec.list, JSpec.vector, JSpec.optional, all_true, MatlData.MatlEntryData.finite, Bool.and_assoc]) (fun v => by simp [JSpec.fields, JSpec.both, JSpec.plain, JSpec.exact, JSpec.list, JSpec.vector, JSpec.optional, all_true])

theorem MatlData.json_law : JLaw MatlData.json (.exact MatlData.finite) :=
  (JLaw.struct (.and (.field "major_version" JLaw.u16) (.and (.field "minor_version" JLaw.u16) (.field "entries" MatlData.MatlEntryData.json_law.vec))) (show ["major_version", "minor_version", "entries"].Nodup by decide) (fun _ => rfl)).exact (fun _ => rfl)
    (fun v => by simp [JSpec.fields, JSpec.both, JSpec.plain, JSpec.exact, JSpec.list, JSpec.vector, JSpec.optional, all_true, MatlData.finite, Bool.and_assoc]) (fun v => by simp [JSpec.fields, JSpec.both, JSpec.plain, JSpec.exact, JSpec.list, JSpec.vector, JSpec.optional, all_true])

theorem matrixJson_law : JLaw matrixJson (.exact Matrix4x4.finite) := by
  have h : JLaw (JCodec.arrayN 4 (JCodec.arrayN 4 JCodec.f32)) (.exact (fun a => a.toList.all (fun b => b.toList.all finite))) :=
    f32_law.arrayN.arrayN.exact (fun _ => rfl) (fun v => by simp [JSpec.fields, JSpec.both, JSpec.plain, JSpec.exact, JSpec.list, JSpec.vector, JSpec.optional, all_true]) (fun v => by simp [JSpec.fields, JSpec.both, JSpec.plain, JSpec.exact, JSpec.list, JSpec.vector, JSpec.optional, all_true])
  refine (h.via (fun _ => rfl)).exact (fun _ => rfl) (fun m => ?_) (fun _ => rfl)
  simp [JSpec.exact, Matrix4x4.finite, Vector4.finite, Bool.and_assoc]

theorem SkelData.BoneData.json_law : JLaw SkelData.BoneData.json (.exact SkelData.BoneData.finite) :=
  (JLaw.struct (.and (.field "name" JLaw.string) (.and (.field "transform" matrixJson_law) (.and (.field "parent_index" (JLaw.optional (fin := Verif.isUsize) usize_law)) (.field "billboard_type" (show JLaw Skel.BillboardType.json .plain from Skel.BillboardType.json_law))))) (show ["name", "transform", "parent_index", "billboard_type"].Nodup by decide) (fun _ => rfl)).exact (fun _ => rfl)
    (fun v => by simp [JSpec.fields, JSpec.both, JSpec.plain, JSpec.exact, JSpec.list, JSpec.vector, JSpec.optional, all_true, SkelData.BoneData.finite, Bool.and_assoc]) (fun v => by simp [JSpec.fields, JSpec.both, JSpec.plain, JSpec.exact, JSpec.list, JSpec.vector, JSpec.optional, all_true])

theorem SkelData.json_law : JLaw SkelData.json (.exact SkelData.finite) :=
  (JLaw.struct (.and (.field "major_version" JLaw.u16) (.and (.field "minor_version" JLaw.u16) (.field "bones" SkelData.BoneData.json_law.vec))) (show ["major_version", "minor_version", "bones"].Nodup by decide) (fun _ => rfl)).exact (fun _ => rfl)
    (fun v => by simp [JSpec.fields, JSpec.both, JSpec.plain, JSpec.exact, JSpec.list, JSpec.vector, JSpec.optional, all_true, SkelData.finite, Bool.and_assoc]) (fun v => by simp [JSpec.fields, JSpec.both, JSpec.plain, JSpec.exact, JSpec.list, JSpec.vector, JSpec.optional, all_true])

theorem MeshExData.EntryFlags.json_law : JLaw MeshExData.EntryFlags.json (.exact (fun _ => true)) :=
  (JLaw.struct (.and (.field "draw_model" JLaw.boolean) (.field "cast_shadow" JLaw.boolean)) (show ["draw_model", "cast_shadow"].Nodup by decide) (fun _ => rfl)).exact (fun _ => rfl)
    (fun v => by simp [JSpec.fields, JSpec.both, JSpec.plain, JSpec.exact, JSpec.list, JSpec.vector, JSpec.optional, all_true, Bool.and_assoc]) (fun v => by simp [JSpec.fields, JSpec.both, JSpec.plain, JSpec.exact, JSpec.list, JSpec.vector, JSpec.optional, all_true])

theorem MeshExData.MeshObjectGroupData.json_law : JLaw MeshExData.MeshObjectGroupData.json (.exact MeshExData.MeshObjectGroupData.finite) :=
  (JLaw.struct (.and (.field "bounding_sphere" Mesh.BoundingSphere.json_exact) (.and (.field "mesh_object_full_name" JLaw.string) (.and (.field "mesh_object_name" JLaw.string) (.field "entry_flags" MeshExData.EntryFlags.json_law.vec)))) (show ["bounding_sphere", "mesh_object_full_name", "mesh_object_name", "entry_flags"].Nodup by decide) (fun _ => rfl)).exact (fun _ => rfl)
    (fun v => by simp [JSpec.fields, JSpec.both, JSpec.plain, JSpec.exact, JSpec.list, JSpec.vector, JSpec.optional, all_true, MeshExData.MeshObjectGroupData.finite, Bool.and_assoc]) (fun v => by simp [JSpec.fields, JSpec.both, JSpec.plain, JSpec.exact, JSpec.list, JSpec.vector, JSpec.optional, all_true])

theorem MeshExData.json_law : JLaw MeshExData.json (.exact MeshExData.finite) :=
  (JLaw.struct (.field "mesh_object_groups" MeshExData.MeshObjectGroupData.json_law.vec) (show ["mesh_object_groups"].Nodup by decide) (fun _ => rfl)).exact (fun _ => rfl)
    (fun v => by simp [JSpec.fields, JSpec.both, JSpec.plain, JSpec.exact, JSpec.list, JSpec.vector, JSpec.optional, all_true, MeshExData.finite, Bool.and_assoc]) (fun v => by simp [JSpec.fields, JSpec.both, JSpec.plain, JSpec.exact, JSpec.list, JSpec.vector, JSpec.optional, all_true])

theorem AdjEntryData.json_law : JLaw AdjEntryData.json (.exact AdjEntryData.finite) :=
  (JLaw.struct (.and (.field "mesh_object_index" usize_law) (.field "vertex_adjacency" JLaw.i16.vec)) (show ["mesh_object_index", "vertex_adjacency"].Nodup by decide) (fun _ => rfl)).exact (fun _ => rfl)
    (fun v => by simp [JSpec.fields, JSpec.both, JSpec.plain, JSpec.exact, JSpec.list, JSpec.vector, JSpec.optional, all_true, AdjEntryData.finite, Bool.and_assoc]) (fun v => by simp [JSpec.fields, JSpec.both, JSpec.plain, JSpec.exact, JSpec.list, JSpec.vector, JSpec.optional, all_true])

theorem AdjData.json_law : JLaw AdjData.json (.exact AdjData.finite) :=
  (JLaw.struct (.field "entries" AdjEntryData.json_law.vec) (show ["entries"].Nodup by decide) (fun _ => rfl)).exact (fun _ => rfl)
    (fun v => by simp [JSpec.fields, JSpec.both, JSpec.plain, JSpec.exact, JSpec.list, JSpec.vector, JSpec.optional, all_true, AdjData.finite, Bool.and_assoc]) (fun v => by simp [JSpec.fields, JSpec.both, JSpec.plain, JSpec.exact, JSpec.list, JSpec.vector, JSpec.optional, all_true])

theorem VectorData.json_law : JLaw VectorData.json (.exact VectorData.finite) where
  null v := by cases v <;> simp [VectorData.json, JSpec.exact]
  back v := by
    cases v with
    | Vector2 v =>
      have h := (f32_law.arrayN.vec.exact (fin := (fun l => l.all (fun a => a.toList.all Verif.finite))) (fun _ => rfl) (fun v => by simp [JSpec.fields, JSpec.both, JSpec.plain, JSpec.exact, JSpec.list, JSpec.vector, JSpec.optional, all_true]) (fun v => by simp [JSpec.fields, JSpec.both, JSpec.plain, JSpec.exact, JSpec.list, JSpec.vector, JSpec.optional, all_true])).back v
      exact back_variant (s := .exact (fun l => l.all (fun a => a.toList.all Verif.finite))) (t := .exact VectorData.finite) (f := VectorData.Vector2) h rfl rfl
    | Vector3 v =>
      have h := (f32_law.arrayN.vec.exact (fin := (fun l => l.all (fun a => a.toList.all Verif.finite))) (fun _ => rfl) (fun v => by simp [JSpec.fields, JSpec.both, JSpec.plain, JSpec.exact, JSpec.list, JSpec.vector, JSpec.optional, all_true]) (fun v => by simp [JSpec.fields, JSpec.both, JSpec.plain, JSpec.exact, JSpec.list, JSpec.vector, JSpec.optional, all_true])).back v
      exact back_variant (s := .exact (fun l => l.all (fun a => a.toList.all Verif.finite))) (t := .exact VectorData.finite) (f := VectorData.Vector3) h rfl rfl
    | Vector4 v =>
      have h := (f32_law.arrayN.vec.exact (fin := (fun l => l.all (fun a => a.toList.all Verif.finite))) (fun _ => rfl) (fun v => by simp [JSpec.fields, JSpec.both, JSpec.plain, JSpec.exact, JSpec.list, JSpec.vector, JSpec.optional, all_true]) (fun v => by simp [JSpec.fields, JSpec.both, JSpec.plain, JSpec.exact, JSpec.list, JSpec.vector, JSpec.optional, all_true])).back v
      exact back_variant (s := .exact (fun l => l.all (fun a => a.toList.all Verif.finite))) (t := .exact VectorData.finite) (f := VectorData.Vector4) h rfl rfl
  same _ _ := rfl

theorem MeshData.AttributeData.json_law : JLaw MeshData.AttributeData.json (.exact MeshData.AttributeData.finite) :=
  (JLaw.struct (.and (.field "name" JLaw.string) (.field "data" VectorData.json_law)) (show ["name", "data"].Nodup by decide) (fun _ => rfl)).exact (fun _ => rfl)
    (fun v => by simp [JSpec.fields, JSpec.both, JSpec.plain, JSpec.exact, JSpec.list, JSpec.vector, JSpec.optional, all_true, MeshData.AttributeData.finite, Bool.and_assoc]) (fun v => by simp [JSpec.fields, JSpec.both, JSpec.plain, JSpec.exact, JSpec.list, JSpec.vector, JSpec.optional, all_true])

theorem MeshData.VertexWeight.json_law : JLaw MeshData.VertexWeight.json (.exact MeshData.VertexWeight.finite) :=
  (JLaw.struct (.and (.field "vertex_index" JLaw.u32) (.field "vertex_weight" f32_law)) (show ["vertex_index", "vertex_weight"].Nodup by decide) (fun _ => rfl)).exact (fun _ => rfl)
    (fun v => by simp [JSpec.fields, JSpec.both, JSpec.plain, JSpec.exact, JSpec.list, JSpec.vector, JSpec.optional, all_true, MeshData.VertexWeight.finite, Bool.and_assoc]) (fun v => by simp [JSpec.fields, JSpec.both, JSpec.plain, JSpec.exact, JSpec.list, JSpec.vector, JSpec.optional, all_true])

theorem MeshData.BoneInfluence.json_law : JLaw MeshData.BoneInfluence.json (.exact MeshData.BoneInfluence.finite) :=
  (JLaw.struct (.and (.field "bone_name" JLaw.string) (.field "vertex_weights" MeshData.VertexWeight.json_law.vec)) (show ["bone_name", "vertex_weights"].Nodup by decide) (fun _ => rfl)).exact (fun _ => rfl)
    (fun v => by simp [JSpec.fields, JSpec.both, JSpec.plain, JSpec.exact, JSpec.list, JSpec.vector, JSpec.optional, all_true, MeshData.BoneInfluence.finite, Bool.and_assoc]) (fun v => by simp [JSpec.fields, JSpec.both, JSpec.plain, JSpec.exact, JSpec.list, JSpec.vector, JSpec.optional, all_true])

theorem MeshData.MeshObjectData.json_law : JLaw MeshData.MeshObjectData.json (.exact MeshData.MeshObjectData.finite) :=
  (JLaw.struct (.and (.field "name" JLaw.string) (.and (.field "subindex" JLaw.u64) (.and (.field "parent_bone_name" JLaw.string) (.and (.field "sort_bias" JLaw.i32) (.and (.field "disable_depth_write" JLaw.boolean) (.and (.field "disable_depth_test" JLaw.boolean) (.and (.field "vertex_indices" JLaw.u32.vec) (.and (.field "positions" MeshData.AttributeData.json_law.vec) (.and (.field "normals" MeshData.AttributeData.json_law.vec) (.and (.field "binormals" MeshData.AttributeData.json_law.vec) (.and (.field "tangents" MeshData.AttributeData.json_law.vec) (.and (.field "texture_coordinates" MeshData.AttributeData.json_law.vec) (.and (.field "color_sets" MeshData.AttributeData.json_law.vec) (.field "bone_influences" MeshData.BoneInfluence.json_law.vec)))))))))))))) (show ["name", "subindex", "parent_bone_name", "sort_bias", "disable_depth_write", "disable_depth_test", "vertex_indices", "positions", "normals", "binormals", "tangents", "texture_coordinates", "color_sets", "bone_influences"].Nodup by decide) (fun _ => rfl)).exact (fun _ => rfl)
    (fun v => by simp [JSpec.fields, JSpec.both, JSpec.plain, JSpec.exact, JSpec.list, JSpec.vector, JSpec.optional, all_true, MeshData.MeshObjectData.finite, Bool.and_assoc]) (fun v => by simp [JSpec.fields, JSpec.both, JSpec.plain, JSpec.exact, JSpec.list, JSpec.vector, JSpec.optional, all_true])

theorem MeshData.json_law : JLaw MeshData.json (.exact MeshData.finite) :=
  (JLaw.struct (.and (.field "major_version" JLaw.u16) (.and (.field "minor_version" JLaw.u16) (.field "objects" MeshData.MeshObjectData.json_law.vec))) (show ["major_version", "minor_version", "objects"].Nodup by decide) (fun _ => rfl)).exact (fun _ => rfl)
    (fun v => by simp [JSpec.fields, JSpec.both, JSpec.plain, JSpec.exact, JSpec.list, JSpec.vector, JSpec.optional, all_true, MeshData.finite, Bool.and_assoc]) (fun v => by simp [JSpec.fields, JSpec.both, JSpec.plain, JSpec.exact, JSpec.list, JSpec.vector, JSpec.optional, all_true])

theorem UvTransform.json_law : JLaw UvTransform.json (.exact UvTransform.finite) :=
  (JLaw.struct (.and (.field "scale_u" f32_law) (.and (.field "scale_v" f32_law) (.and (.field "rotation" f32_law) (.and (.field "translate_u" f32_law) (.field "translate_v" f32_law))))) (show ["scale_u", "scale_v", "rotation", "translate_u", "translate_v"].Nodup by decide) (fun _ => rfl)).exact (fun _ => rfl)
    (fun v => by simp [JSpec.fields, JSpec.both, JSpec.plain, JSpec.exact, JSpec.list, JSpec.vector, JSpec.optional, all_true, UvTransform.finite, Bool.and_assoc]) (fun v => by simp [JSpec.fields, JSpec.both, JSpec.plain, JSpec.exact, JSpec.list, JSpec.vector, JSpec.optional, all_true])

theorem Transform.json_law : JLaw Transform.json (.exact Transform.finite) :=
  (JLaw.struct (.and (.field "scale" Vector3.json_exact) (.and (.field "rotation" Vector4.json_exact) (.field "translation" Vector3.json_exact))) (show ["scale", "rotation", "translation"].Nodup by decide) (fun _ => rfl)).exact (fun _ => rfl)
    (fun v => by simp [JSpec.fields, JSpec.both, JSpec.plain, JSpec.exact, JSpec.list, JSpec.vector, JSpec.optional, all_true, Transform.finite, Bool.and_assoc]) (fun v => by simp [JSpec.fields, JSpec.both, JSpec.plain, JSpec.exact, JSpec.list, JSpec.vector, JSpec.optional, all_true])

theorem TrackValues.json_law : JLaw TrackValues.json (.exact TrackValues.finite) where
  null v := by cases v <;> simp [TrackValues.json, JSpec.exact]
  back v := by
    cases v with
    | transform v =>
      have h := (Transform.json_law.vec.exact (fin := (fun l => l.all Transform.finite)) (fun _ => rfl) (fun v => by simp [JSpec.fields, JSpec.both, JSpec.plain, JSpec.exact, JSpec.list, JSpec.vector, JSpec.optional, all_true]) (fun v => by simp [JSpec.fields, JSpec.both, JSpec.plain, JSpec.exact, JSpec.list, JSpec.vector, JSpec.optional, all_true])).back v
      exact back_variant (s := .exact (fun l => l.all Transform.finite)) (t := .exact TrackValues.finite) (f := TrackValues.transform) h rfl rfl
    | uvTransform v =>
      have h := (UvTransform.json_law.vec.exact (fin := (fun l => l.all UvTransform.finite)) (fun _ => rfl) (fun v => by simp [JSpec.fields, JSpec.both, JSpec.plain, JSpec.exact, JSpec.list, JSpec.vector, JSpec.optional, all_true]) (fun v => by simp [JSpec.fields, JSpec.both, JSpec.plain, JSpec.exact, JSpec.list, JSpec.vector, JSpec.optional, all_true])).back v
      exact back_variant (s := .exact (fun l => l.all UvTransform.finite)) (t := .exact TrackValues.finite) (f := TrackValues.uvTransform) h rfl rfl
    | float v =>
      have h := (f32_law.vec.exact (fin := (fun l => l.all Verif.finite)) (fun _ => rfl) (fun v => by simp [JSpec.fields, JSpec.both, JSpec.plain, JSpec.exact, JSpec.list, JSpec.vector, JSpec.optional, all_true]) (fun v => by simp [JSpec.fields, JSpec.both, JSpec.plain, JSpec.exact, JSpec.list, JSpec.vector, JSpec.optional, all_true])).back v
      exact back_variant (s := .exact (fun l => l.all Verif.finite)) (t := .exact TrackValues.finite) (f := TrackValues.float) h rfl rfl
    | patternIndex v =>
      have h := (JLaw.u32.vec.exact (fin := (fun _ => true)) (fun _ => rfl) (fun v => by simp [JSpec.fields, JSpec.both, JSpec.plain, JSpec.exact, JSpec.list, JSpec.vector, JSpec.optional, all_true]) (fun v => by simp [JSpec.fields, JSpec.both, JSpec.plain, JSpec.exact, JSpec.list, JSpec.vector, JSpec.optional, all_true])).back v
      exact back_variant (s := .exact (fun _ => true)) (t := .exact TrackValues.finite) (f := TrackValues.patternIndex) h rfl rfl
    | boolean v =>
      have h := (JLaw.boolean.vec.exact (fin := (fun _ => true)) (fun _ => rfl) (fun v => by simp [JSpec.fields, JSpec.both, JSpec.plain, JSpec.exact, JSpec.list, JSpec.vector, JSpec.optional, all_true]) (fun v => by simp [JSpec.fields, JSpec.both, JSpec.plain, JSpec.exact, JSpec.list, JSpec.vector, JSpec.optional, all_true])).back v
      exact back_variant (s := .exact (fun _ => true)) (t := .exact TrackValues.finite) (f := TrackValues.boolean) h rfl rfl
    | vector4 v =>
      have h := (Vector4.json_exact.vec.exact (fin := (fun l => l.all Vector4.finite)) (fun _ => rfl) (fun v => by simp [JSpec.fields, JSpec.both, JSpec.plain, JSpec.exact, JSpec.list, JSpec.vector, JSpec.optional, all_true]) (fun v => by simp [JSpec.fields, JSpec.both, JSpec.plain, JSpec.exact, JSpec.list, JSpec.vector, JSpec.optional, all_true])).back v
      exact back_variant (s := .exact (fun l => l.all Vector4.finite)) (t := .exact TrackValues.finite) (f := TrackValues.vector4) h rfl rfl
  same _ _ := rfl

theorem AnimData.TransformFlags.json_law : JLaw AnimData.TransformFlags.json (.exact (fun _ => true)) :=
  (JLaw.struct (.and (.field "override_translation" JLaw.boolean) (.and (.field "override_rotation" JLaw.boolean) (.and (.field "override_scale" JLaw.boolean) (.field "override_compensate_scale" JLaw.boolean)))) (show ["override_translation", "override_rotation", "override_scale", "override_compensate_scale"].Nodup by decide) (fun _ => rfl)).exact (fun _ => rfl)
    (fun v => by simp [JSpec.fields, JSpec.both, JSpec.plain, JSpec.exact, JSpec.list, JSpec.vector, JSpec.optional, all_true, Bool.and_assoc]) (fun v => by simp [JSpec.fields, JSpec.both, JSpec.plain, JSpec.exact, JSpec.list, JSpec.vector, JSpec.optional, all_true])

theorem AnimData.TrackData.json_law : JLaw AnimData.TrackData.json (.exact AnimData.TrackData.finite) :=
  (JLaw.struct (.and (.field "name" JLaw.string) (.and (.field "compensate_scale" JLaw.boolean) (.and (.field "transform_flags" AnimData.TransformFlags.json_law) (.field "values" TrackValues.json_law)))) (show ["name", "compensate_scale", "transform_flags", "values"].Nodup by decide) (fun _ => rfl)).exact (fun _ => rfl)
    (fun v => by simp [JSpec.fields, JSpec.both, JSpec.plain, JSpec.exact, JSpec.list, JSpec.vector, JSpec.optional, all_true, AnimData.TrackData.finite, Bool.and_assoc]) (fun v => by simp [JSpec.fields, JSpec.both, JSpec.plain, JSpec.exact, JSpec.list, JSpec.vector, JSpec.optional, all_true])

theorem AnimData.NodeData.json_law : JLaw AnimData.NodeData.json (.exact AnimData.NodeData.finite) :=
  (JLaw.struct (.and (.field "name" JLaw.string) (.field "tracks" AnimData.TrackData.json_law.vec)) (show ["name", "tracks"].Nodup by decide) (fun _ => rfl)).exact (fun _ => rfl)
    (fun v => by simp [JSpec.fields, JSpec.both, JSpec.plain, JSpec.exact, JSpec.list, JSpec.vector, JSpec.optional, all_true, AnimData.NodeData.finite, Bool.and_assoc]) (fun v => by simp [JSpec.fields, JSpec.both, JSpec.plain, JSpec.exact, JSpec.list, JSpec.vector, JSpec.optional, all_true])

theorem AnimData.GroupData.json_law : JLaw AnimData.GroupData.json (.exact AnimData.GroupData.finite) :=
  (JLaw.struct (.and (.field "group_type" (show JLaw Anim.GroupType.json .plain from Anim.GroupType.json_law)) (.field "nodes" AnimData.NodeData.json_law.vec)) (show ["group_type", "nodes"].Nodup by decide) (fun _ => rfl)).exact (fun _ => rfl)
    (fun v => by simp [JSpec.fields, JSpec.both, JSpec.plain, JSpec.exact, JSpec.list, JSpec.vector, JSpec.optional, all_true, AnimData.GroupData.finite, Bool.and_assoc]) (fun v => by simp [JSpec.fields, JSpec.both, JSpec.plain, JSpec.exact, JSpec.list, JSpec.vector, JSpec.optional, all_true])

theorem AnimData.json_law : JLaw AnimData.json (.exact AnimData.finite) :=
  (JLaw.struct (.and (.field "major_version" JLaw.u16) (.and (.field "minor_version" JLaw.u16) (.and (.field "final_frame_index" f32_law) (.field "groups" AnimData.GroupData.json_law.vec)))) (show ["major_version", "minor_version", "final_frame_index", "groups"].Nodup by decide) (fun _ => rfl)).exact (fun _ => rfl)
    (fun v => by simp [JSpec.fields, JSpec.both, JSpec.plain, JSpec.exact, JSpec.list, JSpec.vector, JSpec.optional, all_true, AnimData.finite, Bool.and_assoc]) (fun v => by simp [JSpec.fields, JSpec.both, JSpec.plain, JSpec.exact, JSpec.list, JSpec.vector, JSpec.optional, all_true])

theorem ShdrData.DataType.json_law : JLaw ShdrData.DataType.json .plain :=
  JLaw.variants (by decide +kernel) (by intro v; cases v <;> decide)

theorem ShdrData.Buffer.json_law : JLaw ShdrData.Buffer.json (.exact (fun _ => true)) :=
  (JLaw.struct (.and (.field "name" JLaw.string) (.and (.field "used_size_in_bytes" JLaw.u32) (.and (.field "uniform_count" JLaw.u32) (.and (.field "unk4" JLaw.i32) (.and (.field "unk5" JLaw.i32) (.and (.field "unk6" JLaw.i32) (.field "unk7" JLaw.i32))))))) (show ["name", "used_size_in_bytes", "uniform_count", "unk4", "unk5", "unk6", "unk7"].Nodup by decide) (fun _ => rfl)).exact (fun _ => rfl)
    (fun v => by simp [JSpec.fields, JSpec.both, JSpec.plain, JSpec.exact, JSpec.list, JSpec.vector, JSpec.optional, all_true, Bool.and_assoc]) (fun v => by simp [JSpec.fields, JSpec.both, JSpec.plain, JSpec.exact, JSpec.list, JSpec.vector, JSpec.optional, all_true])

theorem ShdrData.Uniform.json_law : JLaw ShdrData.Uniform.json (.exact (fun _ => true)) :=
  (JLaw.struct (.and (.field "name" JLaw.string) (.and (.field "data_type" ShdrData.DataType.json_law) (.and (.field "buffer_index" JLaw.i32) (.and (.field "uniform_buffer_offset" JLaw.i32) (.field "unk11" JLaw.i32))))) (show ["name", "data_type", "buffer_index", "uniform_buffer_offset", "unk11"].Nodup by decide) (fun _ => rfl)).exact (fun _ => rfl)
    (fun v => by simp [JSpec.fields, JSpec.both, JSpec.plain, JSpec.exact, JSpec.list, JSpec.vector, JSpec.optional, all_true, Bool.and_assoc]) (fun v => by simp [JSpec.fields, JSpec.both, JSpec.plain, JSpec.exact, JSpec.list, JSpec.vector, JSpec.optional, all_true])

theorem ShdrData.Attribute.json_law : JLaw ShdrData.Attribute.json (.exact (fun _ => true)) :=
  (JLaw.struct (.and (.field "name" JLaw.string) (.and (.field "data_type" ShdrData.DataType.json_law) (.field "location" JLaw.i32))) (show ["name", "data_type", "location"].Nodup by decide) (fun _ => rfl)).exact (fun _ => rfl)
    (fun v => by simp [JSpec.fields, JSpec.both, JSpec.plain, JSpec.exact, JSpec.list, JSpec.vector, JSpec.optional, all_true, Bool.and_assoc]) (fun v => by simp [JSpec.fields, JSpec.both, JSpec.plain, JSpec.exact, JSpec.list, JSpec.vector, JSpec.optional, all_true])

theorem ShdrData.MetaData.json_law : JLaw ShdrData.MetaData.json (.exact (fun _ => true)) :=
  (JLaw.struct (.and (.field "buffers" ShdrData.Buffer.json_law.vec) (.and (.field "uniforms" ShdrData.Uniform.json_law.vec) (.and (.field "inputs" ShdrData.Attribute.json_law.vec) (.field "outputs" ShdrData.Attribute.json_law.vec)))) (show ["buffers", "uniforms", "inputs", "outputs"].Nodup by decide) (fun _ => rfl)).exact (fun _ => rfl)
    (fun v => by simp [JSpec.fields, JSpec.both, JSpec.plain, JSpec.exact, JSpec.list, JSpec.vector, JSpec.optional, all_true, Bool.and_assoc]) (fun v => by simp [JSpec.fields, JSpec.both, JSpec.plain, JSpec.exact, JSpec.list, JSpec.vector, JSpec.optional, all_true])

theorem ShdrData.ShaderEntryData.json_law : JLaw ShdrData.ShaderEntryData.json (.exact (fun _ => true)) :=
  (JLaw.struct (.and (.field "name" JLaw.string) (.and (.field "shader_stage" (show JLaw Shdr.ShaderStage.json .plain from Shdr.ShaderStage.json_law)) (.field "meta_data" ShdrData.MetaData.json_law))) (show ["name", "shader_stage", "meta_data"].Nodup by decide) (fun _ => rfl)).exact (fun _ => rfl)
    (fun v => by simp [JSpec.fields, JSpec.both, JSpec.plain, JSpec.exact, JSpec.list, JSpec.vector, JSpec.optional, all_true, Bool.and_assoc]) (fun v => by simp [JSpec.fields, JSpec.both, JSpec.plain, JSpec.exact, JSpec.list, JSpec.vector, JSpec.optional, all_true])

theorem ShdrData.json_law : JLaw ShdrData.json (.exact (fun _ => true)) :=
  (JLaw.struct (.field "shaders" ShdrData.ShaderEntryData.json_law.vec) (show ["shaders"].Nodup by decide) (fun _ => rfl)).exact (fun _ => rfl)
    (fun v => by simp [JSpec.fields, JSpec.both, JSpec.plain, JSpec.exact, JSpec.list, JSpec.vector, JSpec.optional, all_true, Bool.and_assoc]) (fun v => by simp [JSpec.fields, JSpec.both, JSpec.plain, JSpec.exact, JSpec.list, JSpec.vector, JSpec.optional, all_true])

end Verif
