import Verif.Lib.ReadBounds
/-!
# Lengths of what is read

`extent v` is the length of the longest list, buffer or string anywhere in the value `v`, and `Fits c` says that
the reader `c` only returns values whose extent is at most the length of the input. The instances for the formats are
written by tools/gen_extent.py.
-/

namespace Verif

class Extent (α : Type) where
  extent : α → Nat

export Extent (extent)

instance : Extent UInt8 := ⟨fun _ => 0⟩
instance : Extent UInt16 := ⟨fun _ => 0⟩
instance : Extent UInt32 := ⟨fun _ => 0⟩
instance : Extent UInt64 := ⟨fun _ => 0⟩
instance : Extent Int16 := ⟨fun _ => 0⟩
instance : Extent Int32 := ⟨fun _ => 0⟩
instance : Extent Unit := ⟨fun _ => 0⟩
instance : Extent (ReprEnum tags) := ⟨fun _ => 0⟩
instance : Extent CStr := ⟨fun s => s.bytes.length⟩
instance [Extent α] [Extent β] : Extent (α × β) := ⟨fun v => max (extent v.1) (extent v.2)⟩
instance [Extent α] : Extent (Option α) := ⟨fun v => match v with | some x => extent x | none => 0⟩
instance [Extent α] : Extent (List α) := ⟨fun l => l.foldr (fun x m => max (extent x) m) l.length⟩
instance [Extent α] : Extent (Vector α n) := ⟨fun l => l.toList.foldr (fun x m => max (extent x) m) 0⟩

theorem foldr_max_le {α : Type} [Extent α] {l : List α} {n k : Nat} :
    l.foldr (fun x m => max (extent x) m) k ≤ n ↔ k ≤ n ∧ ∀ x ∈ l, extent x ≤ n := by
  induction l with
  | nil => simp
  | cons x l ih => simp only [List.foldr_cons, Nat.max_le, ih, List.mem_cons, forall_eq_or_imp]; grind

theorem list_extent_le {α : Type} [Extent α] {l : List α} {n : Nat} :
    extent l ≤ n ↔ l.length ≤ n ∧ ∀ x ∈ l, extent x ≤ n := foldr_max_le

theorem bytes_extent (l : Bytes) : extent l = l.length := by
  apply Nat.le_antisymm
  · exact list_extent_le.mpr ⟨Nat.le_refl _, fun _ _ => Nat.zero_le _⟩
  · exact (list_extent_le.mp (Nat.le_refl _)).1

class Fits [Extent α] (c : Codec α) : Prop where
  fits : ∀ {b p v q}, c.read b p = .ok (v, q) → extent v ≤ b.length

class FitsT [Extent α] (t : Tagged α) : Prop where
  fits : ∀ tag b p v q, t.read tag b p = .ok (v, q) → extent v ≤ b.length

class FitsF [Extent α] (f : Format α) : Prop where
  fits : ∀ major minor b p v q, f.read major minor b p = .ok (v, q) → extent v ≤ b.length

theorem fits_zero [Extent α] {c : Codec α} (h : ∀ v : α, extent v = 0) : Fits c := ⟨fun {_ _ v _} _ => by rw [h v]; omega⟩

instance : Fits u8 := fits_zero fun _ => rfl
instance : Fits u16 := fits_zero fun _ => rfl
instance : Fits u32 := fits_zero fun _ => rfl
instance : Fits u64 := fits_zero fun _ => rfl
instance : Fits i16 := fits_zero fun _ => rfl
instance : Fits i32 := fits_zero fun _ => rfl
instance : Fits f32 := fits_zero fun _ => rfl
instance : Fits unitC := fits_zero fun _ => rfl
instance : Fits (reprEnum n tags) := fits_zero fun _ => rfl
instance : Fits bitfield16 := fits_zero fun _ => rfl
instance : Fits bitfield32 := fits_zero fun _ => rfl

instance [Extent α] [Extent β] {a : Codec α} {b : Codec β} [ha : Fits a] [hb : Fits b] : Fits (pair a b) where
  fits {bs p v q} h := by
    simp only [pair] at h
    split at h
    · cases h
    rename_i x p1 h1
    split at h
    · cases h
    rename_i y p2 h2
    cases h
    exact Nat.max_le.mpr ⟨ha.fits h1, hb.fits h2⟩

theorem padAfter_fits [Extent α] {a : Codec α} {n : Nat} (ha : Fits a) : Fits (padAfter n a) where
  fits {bs p v q} h := by
    simp only [padAfter] at h
    split at h
    · cases h
    rename_i x p1 h1
    cases h
    exact ha.fits h1

theorem padAfterWrite_fits [Extent α] {a : Codec α} {n : Nat} (ha : Fits a) : Fits (padAfterWrite n a) := ⟨ha.fits⟩
instance [Extent α] {a : Codec α} {n : Nat} [ha : Fits a] : Fits (padAfterWrite n a) := padAfterWrite_fits ha

theorem iso_fits [Extent α] [Extent β] {a : Codec α} {to : β → α} {from' : α → β} {h}
    (hf : ∀ x, extent (from' x) = extent x) (ha : Fits a) : Fits (iso a to from' h) where
  fits {bs p v q} h := by
    simp only [iso] at h
    split at h
    · cases h
    rename_i x p1 h1
    cases h
    rw [hf]
    exact ha.fits h1

theorem struct_fits [Extent α] {a : Codec α} {al : Nat} (ha : Fits a) : Fits (struct al a) := ⟨ha.fits⟩
instance [Extent α] {a : Codec α} {al : Nat} [ha : Fits a] : Fits (struct al a) := struct_fits ha

theorem readElems_fits [Extent α] {a : Codec α} [ha : Fits a] : ∀ {n : Nat} {b : Bytes} {p : Nat} {vs : List α} {q : Nat},
    readElems a n b p = .ok (vs, q) → ∀ v ∈ vs, extent v ≤ b.length
  | 0, b, p, vs, q, h => by simp only [readElems, Except.ok.injEq, Prod.mk.injEq] at h; simp [← h.1]
  | n + 1, b, p, vs, q, h => by
    simp only [readElems] at h
    split at h
    · cases h
    rename_i v p1 h1
    split at h
    · cases h
    rename_i vs' p2 h2
    cases h
    simp only [List.mem_cons, forall_eq_or_imp]
    exact ⟨ha.fits h1, readElems_fits h2⟩

instance [Extent α] {a : Codec α} [Fits a] : Fits (arrayN n a) where
  fits {b p v q} h := by
    simp only [arrayN] at h
    split at h
    · cases h
    rename_i vs q' h1
    split at h
    · cases h
      exact foldr_max_le.mpr ⟨Nat.zero_le _, by simpa using readElems_fits h1⟩
    · cases h

theorem elems_le {k n L : Nat} (hk : 0 < k) (h : 0 < n → (n - 1) * k < L) : n ≤ L := by
  rcases Nat.eq_zero_or_pos n with h0 | h0
  · omega
  · have h1 := h h0
    have h2 : n - 1 ≤ (n - 1) * k := Nat.le_mul_of_pos_right _ hk
    omega

instance [Extent α] {a : Codec α} [Fits a] [hadv : Adv a] : Fits (array a) where
  fits {b p v q} h := by
    simp only [array] at h
    split at h
    · cases h
    rename_i s c sp hh
    split at h
    · cases h
    rename_i vs q' h1
    cases h
    obtain ⟨k, -, hk, hA⟩ := hadv.adv
    obtain ⟨h2, -, h3⟩ := readElems_adv hA _ _ _ _ _ h1
    exact list_extent_le.mpr ⟨by rw [h2]; exact elems_le hk (fun h => by have := h3 h; omega), readElems_fits h1⟩

instance : Fits byteBuffer where
  fits {b p v q} h := by
    simp only [byteBuffer] at h
    split at h
    · cases h
    rename_i s c sp hh
    split at h
    · cases h
    rename_i bs hb
    cases h
    rw [bytes_extent]
    simp only [readBuffer] at hb
    split at hb
    · cases hb
    · cases hb
      simp only [List.length_take, List.length_drop]
      omega

instance [Extent α] {a : Codec α} [ha : Fits a] : Fits (relPtr a) where
  fits {b p v q} h := by
    simp only [relPtr] at h
    split at h
    · cases h
    split at h
    · cases h; exact Nat.zero_le _
    split at h
    · cases h
    split at h
    · cases h
    rename_i x q' h1
    cases h
    exact ha.fits h1

instance [Extent α] {a : Codec α} [ha : Fits a] : Fits (absPtr n a) where
  fits {b p v q} h := by
    simp only [absPtr] at h
    split at h
    · cases h
    split at h
    · cases h; exact Nat.zero_le _
    split at h
    · cases h
    rename_i x q' h1
    cases h
    exact ha.fits h1

instance [Extent α] {t : Tagged α} [ht : FitsT t] : Fits (enum64 t) where
  fits {b p v q} h := by
    simp only [enum64] at h
    split at h
    · cases h
    split at h
    · cases h
    split at h
    · cases h; exact Nat.zero_le _
    split at h
    · cases h
    split at h
    · cases h
    rename_i x q' h1
    cases h
    exact ht.fits _ _ _ _ _ h1

theorem scanCStr_length : ∀ {b s : Bytes}, scanCStr b = .ok s → s.length ≤ b.length
  | [], s, h => by cases h
  | x :: b, s, h => by
    simp only [scanCStr] at h
    split at h
    · cases h; simp
    split at h
    · cases h
    rename_i s' hs
    cases h
    have := scanCStr_length hs
    simp only [List.length_cons]
    omega

instance : Fits (cstring N) where
  fits {b p v q} h := by
    simp only [cstring] at h
    split at h
    · cases h
    rename_i s hs
    cases h
    have := scanCStr_length hs
    simp only [List.length_drop] at this
    show s.length ≤ _
    omega

instance : Fits (ssbhStringN N) := inferInstanceAs (Fits (struct 8 (relPtr (cstring N))))
instance : Fits ssbhString := inferInstanceAs (Fits (ssbhStringN 4))
instance : Fits ssbhString8 := inferInstanceAs (Fits (ssbhStringN 8))

theorem ite_ok {c P : Prop} [Decidable c] {x y z : α} (h : (if c then x else y) = z) (h1 : x = z → P) (h2 : y = z → P) : P := by
  split at h
  · exact h1 h
  · exact h2 h

theorem mapRead_fits [Extent α] [Extent β] {c : Codec α} {f : α → β} {b : Bytes} {p : Nat} {v : β} {q : Nat}
    (h : mapRead f (c.read b p) = .ok (v, q)) (hf : ∀ x, extent (f x) = extent x) (hc : Fits c) :
    extent v ≤ b.length := by
  cases hr : c.read b p with
  | error e => rw [hr] at h; cases h
  | ok x =>
    obtain ⟨x, q'⟩ := x
    rw [hr] at h
    cases h
    rw [hf]
    exact hc.fits hr

/-! ## The types of the formats -/

instance : Extent Vector3 := ⟨fun v => extent (v.x, v.y, v.z)⟩
instance : Fits Vector3.codec :=
  struct_fits (iso_fits (fun _ => rfl) inferInstance)
instance : Extent Matrix3x3 := ⟨fun v => extent (v.col1, v.col2, v.col3)⟩
instance : Fits Matrix3x3.codec :=
  struct_fits (iso_fits (fun _ => rfl) inferInstance)
instance : Extent Vector4 := ⟨fun v => extent (v.x, v.y, v.z, v.w)⟩
instance : Fits Vector4.codec :=
  struct_fits (iso_fits (fun _ => rfl) inferInstance)
instance : Extent Color4f := ⟨fun v => extent (v.r, v.g, v.b, v.a)⟩
instance : Fits Color4f.codec :=
  struct_fits (iso_fits (fun _ => rfl) inferInstance)
instance : Extent Matrix4x4 := ⟨fun v => extent (v.col1, v.col2, v.col3, v.col4)⟩
instance : Fits Matrix4x4.codec :=
  struct_fits (iso_fits (fun _ => rfl) inferInstance)
instance : Extent Nlst.V10Data := ⟨fun v => extent v.file_names⟩
instance : Fits Nlst.V10Data.codec :=
  struct_fits (iso_fits (fun _ => rfl) inferInstance)
instance : Extent Nlst where
  extent
    | .V10 v => extent v
instance : FitsF Nlst.format where
  fits := by
    intro major minor b p v q h
    unfold Nlst.format at h
    refine ite_ok h (fun h => mapRead_fits h (fun _ => rfl) inferInstance) fun h => ?_
    cases h
instance : Fits Shdr.ShaderStage.codec := by unfold Shdr.ShaderStage.codec; infer_instance
instance : Extent Shdr.Shader := ⟨fun v => extent (v.name, v.shader_stage, v.unk3, v.shader_binary, v.binary_size)⟩
instance : Fits Shdr.Shader.codec :=
  struct_fits (padAfter_fits (iso_fits (fun _ => rfl) inferInstance))
instance : Extent Shdr.V12Data := ⟨fun v => extent v.shaders⟩
instance : Fits Shdr.V12Data.codec :=
  struct_fits (iso_fits (fun _ => rfl) inferInstance)
instance : Extent Shdr where
  extent
    | .V12 v => extent v
instance : FitsF Shdr.format where
  fits := by
    intro major minor b p v q h
    unfold Shdr.format at h
    refine ite_ok h (fun h => mapRead_fits h (fun _ => rfl) inferInstance) fun h => ?_
    cases h
instance : Extent Modl.ModlEntry := ⟨fun v => extent (v.mesh_object_name, v.mesh_object_subindex, v.material_label)⟩
instance : Fits Modl.ModlEntry.codec :=
  struct_fits (iso_fits (fun _ => rfl) inferInstance)
instance : Extent Modl.V17Data := ⟨fun v => extent (v.model_name, v.skeleton_file_name, v.material_file_names, v.animation_file_name, v.mesh_file_name, v.entries)⟩
instance : Fits Modl.V17Data.codec :=
  struct_fits (iso_fits (fun _ => rfl) inferInstance)
instance : Extent Modl where
  extent
    | .V17 v => extent v
instance : FitsF Modl.format where
  fits := by
    intro major minor b p v q h
    unfold Modl.format at h
    refine ite_ok h (fun h => mapRead_fits h (fun _ => rfl) inferInstance) fun h => ?_
    cases h
instance : Fits Skel.BillboardType.codec := by unfold Skel.BillboardType.codec; infer_instance
instance : Extent Skel.SkelEntryFlags := ⟨fun v => extent (v.unk1, v.billboard_type)⟩
instance : Fits Skel.SkelEntryFlags.codec :=
  struct_fits (padAfter_fits (iso_fits (fun _ => rfl) inferInstance))
instance : Extent Skel.SkelBoneEntry := ⟨fun v => extent (v.name, v.index, v.parent_index, v.flags)⟩
instance : Fits Skel.SkelBoneEntry.codec :=
  struct_fits (iso_fits (fun _ => rfl) inferInstance)
instance : Extent Skel.V10Data := ⟨fun v => extent (v.bone_entries, v.world_transforms, v.inv_world_transforms, v.transforms, v.inv_transforms)⟩
instance : Fits Skel.V10Data.codec :=
  struct_fits (iso_fits (fun _ => rfl) inferInstance)
instance : Extent Skel where
  extent
    | .V10 v => extent v
instance : FitsF Skel.format where
  fits := by
    intro major minor b p v q h
    unfold Skel.format at h
    refine ite_ok h (fun h => mapRead_fits h (fun _ => rfl) inferInstance) fun h => ?_
    cases h
instance : Extent Hlpb.AimConstraint := ⟨fun v => extent (v.name, v.aim_bone_name1, v.aim_bone_name2, v.aim_type1, v.aim_type2, v.target_bone_name1, v.target_bone_name2, v.unk1, v.unk2, v.aim, v.up, v.quat1, v.quat2, v.unk17, v.unk18, v.unk19, v.unk20, v.unk21, v.unk22)⟩
instance : Fits Hlpb.AimConstraint.codec :=
  struct_fits (iso_fits (fun _ => rfl) inferInstance)
instance : Extent Hlpb.OrientConstraint := ⟨fun v => extent (v.name, v.parent_bone_name1, v.parent_bone_name2, v.source_bone_name, v.target_bone_name, v.unk_type, v.constraint_axes, v.quat1, v.quat2, v.range_min, v.range_max)⟩
instance : Fits Hlpb.OrientConstraint.codec :=
  struct_fits (iso_fits (fun _ => rfl) inferInstance)
instance : Fits Hlpb.ConstraintType.codec := by unfold Hlpb.ConstraintType.codec; infer_instance
instance : Extent Hlpb.V11Data := ⟨fun v => extent (v.aim_constraints, v.orient_constraints, v.constraint_indices, v.constraint_types)⟩
instance : Fits Hlpb.V11Data.codec :=
  struct_fits (iso_fits (fun _ => rfl) inferInstance)
instance : Extent Hlpb where
  extent
    | .V11 v => extent v
instance : FitsF Hlpb.format where
  fits := by
    intro major minor b p v q h
    unfold Hlpb.format at h
    refine ite_ok h (fun h => mapRead_fits h (fun _ => rfl) inferInstance) fun h => ?_
    cases h
instance : Extent Nufx.ShaderStages := ⟨fun v => extent (v.vertex_shader, v.unk_shader1, v.unk_shader2, v.geometry_shader, v.pixel_shader, v.compute_shader)⟩
instance : Fits Nufx.ShaderStages.codec :=
  struct_fits (iso_fits (fun _ => rfl) inferInstance)
instance : Extent Nufx.MaterialParameter := ⟨fun v => extent (v.param_id, v.parameter_name)⟩
instance : Fits Nufx.MaterialParameter.codec :=
  struct_fits (padAfter_fits (iso_fits (fun _ => rfl) inferInstance))
instance : Extent Nufx.ShaderProgramV0 := ⟨fun v => extent (v.name, v.render_pass, v.shaders, v.material_parameters)⟩
instance : Fits Nufx.ShaderProgramV0.codec :=
  struct_fits (iso_fits (fun _ => rfl) inferInstance)
instance : Extent Nufx.UnkItem := ⟨fun v => extent (v.name, v.unk1)⟩
instance : Fits Nufx.UnkItem.codec :=
  struct_fits (iso_fits (fun _ => rfl) inferInstance)
instance : Extent Nufx.NufxV0 := ⟨fun v => extent (v.programs, v.unk_string_list)⟩
instance : Fits Nufx.NufxV0.codec :=
  struct_fits (iso_fits (fun _ => rfl) inferInstance)
instance : Extent Nufx.VertexAttribute := ⟨fun v => extent (v.name, v.attribute_name)⟩
instance : Fits Nufx.VertexAttribute.codec :=
  struct_fits (iso_fits (fun _ => rfl) inferInstance)
instance : Extent Nufx.ShaderProgramV1 := ⟨fun v => extent (v.name, v.render_pass, v.shaders, v.vertex_attributes, v.material_parameters)⟩
instance : Fits Nufx.ShaderProgramV1.codec :=
  struct_fits (iso_fits (fun _ => rfl) inferInstance)
instance : Extent Nufx.NufxV1 := ⟨fun v => extent (v.programs, v.unk_string_list)⟩
instance : Fits Nufx.NufxV1.codec :=
  struct_fits (iso_fits (fun _ => rfl) inferInstance)
instance : Extent Nufx where
  extent
    | .V0 v => extent v
    | .V1 v => extent v
instance : FitsF Nufx.format where
  fits := by
    intro major minor b p v q h
    unfold Nufx.format at h
    refine ite_ok h (fun h => mapRead_fits h (fun _ => rfl) inferInstance) fun h => ?_
    refine ite_ok h (fun h => mapRead_fits h (fun _ => rfl) inferInstance) fun h => ?_
    cases h
instance : Fits Anim.TrackTypeV1.codec := by unfold Anim.TrackTypeV1.codec; infer_instance
instance : Extent Anim.Property := ⟨fun v => extent (v.name, v.buffer_index)⟩
instance : Fits Anim.Property.codec :=
  struct_fits (iso_fits (fun _ => rfl) inferInstance)
instance : Extent Anim.TrackV1 := ⟨fun v => extent (v.name, v.track_type, v.properties)⟩
instance : Fits Anim.TrackV1.codec :=
  struct_fits (iso_fits (fun _ => rfl) inferInstance)
instance : Fits Anim.GroupType.codec := by unfold Anim.GroupType.codec; infer_instance
instance : Fits Anim.TrackTypeV2.codec := by unfold Anim.TrackTypeV2.codec; infer_instance
instance : Fits Anim.CompressionType.codec := by unfold Anim.CompressionType.codec; infer_instance
instance : Extent Anim.TrackFlags := ⟨fun v => extent (v.track_type, v.compression_type)⟩
instance : Fits Anim.TrackFlags.codec :=
  struct_fits (padAfter_fits (iso_fits (fun _ => rfl) inferInstance))
instance : Fits Anim.TransformFlags.codec := by unfold Anim.TransformFlags.codec; infer_instance
instance : Extent Anim.TrackV2 := ⟨fun v => extent (v.name, v.flags, v.frame_count, v.transform_flags, v.data_offset, v.data_size)⟩
instance : Fits Anim.TrackV2.codec :=
  struct_fits (iso_fits (fun _ => rfl) inferInstance)
instance : Extent Anim.Node := ⟨fun v => extent (v.name, v.tracks)⟩
instance : Fits Anim.Node.codec :=
  struct_fits (iso_fits (fun _ => rfl) inferInstance)
instance : Extent Anim.Group := ⟨fun v => extent (v.group_type, v.nodes)⟩
instance : Fits Anim.Group.codec :=
  struct_fits (iso_fits (fun _ => rfl) inferInstance)
instance : Extent Anim.UnkSubItem := ⟨fun v => extent (v.unk1, v.unk2)⟩
instance : Fits Anim.UnkSubItem.codec :=
  struct_fits (iso_fits (fun _ => rfl) inferInstance)
instance : Extent Anim.UnkItem1 := ⟨fun v => extent (v.unk1, v.unk2)⟩
instance : Fits Anim.UnkItem1.codec :=
  struct_fits (iso_fits (fun _ => rfl) inferInstance)
instance : Extent Anim.UnkItem2 := ⟨fun v => extent (v.unk1, v.unk2)⟩
instance : Fits Anim.UnkItem2.codec :=
  struct_fits (iso_fits (fun _ => rfl) inferInstance)
instance : Extent Anim.UnkData := ⟨fun v => extent (v.unk1, v.unk2)⟩
instance : Fits Anim.UnkData.codec :=
  struct_fits (iso_fits (fun _ => rfl) inferInstance)
instance : Extent Anim.V12Data := ⟨fun v => extent (v.name, v.unk1, v.final_frame_index, v.unk2, v.unk3, v.tracks, v.buffers)⟩
instance : Fits Anim.V12Data.codec :=
  struct_fits (iso_fits (fun _ => rfl) inferInstance)
instance : Extent Anim.V20Data := ⟨fun v => extent (v.final_frame_index, v.unk1, v.unk2, v.name, v.groups, v.buffer)⟩
instance : Fits Anim.V20Data.codec :=
  struct_fits (iso_fits (fun _ => rfl) inferInstance)
instance : Extent Anim.V21Data := ⟨fun v => extent (v.final_frame_index, v.unk1, v.unk2, v.name, v.groups, v.buffer, v.unk_data)⟩
instance : Fits Anim.V21Data.codec :=
  struct_fits (iso_fits (fun _ => rfl) inferInstance)
instance : Extent Anim where
  extent
    | .V12 v => extent v
    | .V20 v => extent v
    | .V21 v => extent v
instance : FitsF Anim.format where
  fits := by
    intro major minor b p v q h
    unfold Anim.format at h
    refine ite_ok h (fun h => mapRead_fits h (fun _ => rfl) inferInstance) fun h => ?_
    refine ite_ok h (fun h => mapRead_fits h (fun _ => rfl) inferInstance) fun h => ?_
    refine ite_ok h (fun h => mapRead_fits h (fun _ => rfl) inferInstance) fun h => ?_
    cases h
instance : Extent Mesh.BoundingSphere := ⟨fun v => extent (v.center, v.radius)⟩
instance : Fits Mesh.BoundingSphere.codec :=
  struct_fits (iso_fits (fun _ => rfl) inferInstance)
instance : Extent Mesh.BoundingVolume := ⟨fun v => extent (v.min, v.max)⟩
instance : Fits Mesh.BoundingVolume.codec :=
  struct_fits (iso_fits (fun _ => rfl) inferInstance)
instance : Extent Mesh.OrientedBoundingBox := ⟨fun v => extent (v.center, v.transform, v.size)⟩
instance : Fits Mesh.OrientedBoundingBox.codec :=
  struct_fits (iso_fits (fun _ => rfl) inferInstance)
instance : Extent Mesh.BoundingInfo := ⟨fun v => extent (v.bounding_sphere, v.bounding_volume, v.oriented_bounding_box)⟩
instance : Fits Mesh.BoundingInfo.codec :=
  struct_fits (iso_fits (fun _ => rfl) inferInstance)
instance : Fits Mesh.DrawElementType.codec := by unfold Mesh.DrawElementType.codec; infer_instance
instance : Extent Mesh.DepthFlags := ⟨fun v => extent (v.disable_depth_write, v.disable_depth_test)⟩
instance : Fits Mesh.DepthFlags.codec :=
  struct_fits (padAfter_fits (iso_fits (fun _ => rfl) inferInstance))
instance {A : Type} [Extent A] : Extent (Mesh.MeshObject A) := ⟨fun v => extent (v.name, v.subindex, v.parent_bone_name, v.vertex_count, v.vertex_index_count, v.unk2, v.vertex_buffer0_offset, v.vertex_buffer1_offset, v.vertex_buffer2_offset, v.vertex_buffer3_offset, v.stride0, v.stride1, v.stride2, v.stride3, v.index_buffer_offset, v.unk8, v.draw_element_type, v.use_vertex_skinning, v.sort_bias, v.depth_flags, v.bounding_info, v.attributes)⟩
instance {A : Type} [Extent A] {aC : Codec A} [Adv aC] [Fits aC] : Fits (Mesh.MeshObject.codec aC) :=
  struct_fits (iso_fits (fun _ => rfl) inferInstance)
instance : Extent Mesh.RiggingFlags := ⟨fun v => extent (v.max_influences, v.unk1)⟩
instance : Fits Mesh.RiggingFlags.codec :=
  struct_fits (padAfter_fits (iso_fits (fun _ => rfl) inferInstance))
instance {W2 : Type} [Extent W2] : Extent (Mesh.BoneBuffer W2) := ⟨fun v => extent (v.bone_name, v.data)⟩
instance {W2 : Type} [Extent W2] {w2C : Codec W2} [Adv w2C] [Fits w2C] : Fits (Mesh.BoneBuffer.codec w2C) :=
  struct_fits (iso_fits (fun _ => rfl) inferInstance)
instance {W3 : Type} [Extent W3] : Extent (Mesh.RiggingGroup W3) := ⟨fun v => extent (v.mesh_object_name, v.mesh_object_subindex, v.flags, v.buffers)⟩
instance {W3 : Type} [Extent W3] {w3C : Codec W3} [Adv w3C] [Fits w3C] : Fits (Mesh.RiggingGroup.codec w3C) :=
  struct_fits (iso_fits (fun _ => rfl) inferInstance)
instance {A : Type} {W1 : Type} [Extent A] [Extent W1] : Extent (Mesh.MeshInner A W1) := ⟨fun v => extent (v.model_name, v.bounding_info, v.unk1, v.objects, v.buffer_sizes, v.polygon_index_size, v.vertex_buffers, v.index_buffer, v.rigging_buffers)⟩
instance {A : Type} {W1 : Type} [Extent A] [Extent W1] {aC : Codec A} [Adv aC] [Fits aC] {w1C : Codec W1} [Adv w1C] [Fits w1C] : Fits (Mesh.MeshInner.codec aC w1C) :=
  struct_fits (iso_fits (fun _ => rfl) inferInstance)
instance : Fits Mesh.AttributeUsageV8.codec := by unfold Mesh.AttributeUsageV8.codec; infer_instance
instance : Fits Mesh.AttributeDataTypeV8.codec := by unfold Mesh.AttributeDataTypeV8.codec; infer_instance
instance : Extent Mesh.AttributeV8 := ⟨fun v => extent (v.usage, v.data_type, v.buffer_index, v.buffer_offset, v.subindex)⟩
instance : Fits Mesh.AttributeV8.codec :=
  struct_fits (iso_fits (fun _ => rfl) inferInstance)
instance : Extent Mesh.VertexWeightV8 := ⟨fun v => extent (v.vertex_index, v.vertex_weight)⟩
instance : Fits Mesh.VertexWeightV8.codec :=
  struct_fits (iso_fits (fun _ => rfl) inferInstance)
instance : Fits Mesh.AttributeUsageV9.codec := by unfold Mesh.AttributeUsageV9.codec; infer_instance
instance : Extent Mesh.AttributeV9 := ⟨fun v => extent (v.usage, v.data_type, v.buffer_index, v.buffer_offset, v.subindex, v.name, v.attribute_names)⟩
instance : Fits Mesh.AttributeV9.codec :=
  struct_fits (iso_fits (fun _ => rfl) inferInstance)
instance : Fits Mesh.AttributeDataTypeV10.codec := by unfold Mesh.AttributeDataTypeV10.codec; infer_instance
instance : Extent Mesh.AttributeV10 := ⟨fun v => extent (v.usage, v.data_type, v.buffer_index, v.buffer_offset, v.subindex, v.name, v.attribute_names)⟩
instance : Fits Mesh.AttributeV10.codec :=
  struct_fits (iso_fits (fun _ => rfl) inferInstance)
instance : Extent Mesh where
  extent
    | .V8 v => extent v
    | .V9 v => extent v
    | .V10 v => extent v
instance : FitsF Mesh.format where
  fits := by
    intro major minor b p v q h
    unfold Mesh.format at h
    refine ite_ok h (fun h => mapRead_fits h (fun _ => rfl) inferInstance) fun h => ?_
    refine ite_ok h (fun h => mapRead_fits h (fun _ => rfl) inferInstance) fun h => ?_
    refine ite_ok h (fun h => mapRead_fits h (fun _ => rfl) inferInstance) fun h => ?_
    cases h
instance : Fits Matl.ParamId.codec := by unfold Matl.ParamId.codec; infer_instance
instance : Fits Matl.WrapMode.codec := by unfold Matl.WrapMode.codec; infer_instance
instance : Fits Matl.MinFilter.codec := by unfold Matl.MinFilter.codec; infer_instance
instance : Fits Matl.MagFilter.codec := by unfold Matl.MagFilter.codec; infer_instance
instance : Fits Matl.FilteringType.codec := by unfold Matl.FilteringType.codec; infer_instance
instance : Fits Matl.MaxAnisotropy.codec := by unfold Matl.MaxAnisotropy.codec; infer_instance
instance : Extent Matl.Sampler := ⟨fun v => extent (v.wraps, v.wrapt, v.wrapr, v.min_filter, v.mag_filter, v.texture_filtering_type, v.border_color, v.unk11, v.unk12, v.lod_bias, v.max_anisotropy)⟩
instance : Fits Matl.Sampler.codec :=
  struct_fits (iso_fits (fun _ => rfl) inferInstance)
instance : Extent Matl.UvTransform := ⟨fun v => extent (v.scale_u, v.scale_v, v.rotation, v.translate_u, v.translate_v)⟩
instance : Fits Matl.UvTransform.codec :=
  struct_fits (iso_fits (fun _ => rfl) inferInstance)
instance : Fits Matl.BlendFactor.codec := by unfold Matl.BlendFactor.codec; infer_instance
instance : Fits Matl.BlendOperation.codec := by unfold Matl.BlendOperation.codec; infer_instance
instance : Extent Matl.BlendStateV15 := ⟨fun v => extent (v.source_color, v.color_operation, v.destination_color, v.source_alpha, v.alpha_operation, v.destination_alpha, v.unk6, v.unk7, v.unk8, v.unk9)⟩
instance : Fits Matl.BlendStateV15.codec :=
  struct_fits (iso_fits (fun _ => rfl) inferInstance)
instance : Fits Matl.CullMode.codec := by unfold Matl.CullMode.codec; infer_instance
instance : Extent Matl.RasterizerStateV15 := ⟨fun v => extent v.cull_mode⟩
instance : Fits Matl.RasterizerStateV15.codec :=
  struct_fits (iso_fits (fun _ => rfl) inferInstance)
instance : Extent Matl.ParamV15 where
  extent
    | .Float v => extent v
    | .Boolean v => extent v
    | .Vector4 v => extent v
    | .Unk7 v => extent v
    | .String v => extent v
    | .Sampler v => extent v
    | .UvTransform v => extent v
    | .BlendState v => extent v
    | .RasterizerState v => extent v
instance : FitsT Matl.ParamV15.tagged where
  fits := by
    intro tag b p v q h
    unfold Matl.ParamV15.tagged at h
    refine ite_ok h (fun h => mapRead_fits h (fun _ => rfl) inferInstance) fun h => ?_
    refine ite_ok h (fun h => mapRead_fits h (fun _ => rfl) inferInstance) fun h => ?_
    refine ite_ok h (fun h => mapRead_fits h (fun _ => rfl) inferInstance) fun h => ?_
    refine ite_ok h (fun h => mapRead_fits h (fun _ => rfl) inferInstance) fun h => ?_
    refine ite_ok h (fun h => mapRead_fits h (fun _ => rfl) inferInstance) fun h => ?_
    refine ite_ok h (fun h => mapRead_fits h (fun _ => rfl) inferInstance) fun h => ?_
    refine ite_ok h (fun h => mapRead_fits h (fun _ => rfl) inferInstance) fun h => ?_
    refine ite_ok h (fun h => mapRead_fits h (fun _ => rfl) inferInstance) fun h => ?_
    refine ite_ok h (fun h => mapRead_fits h (fun _ => rfl) inferInstance) fun h => ?_
    cases h
instance : Extent Matl.AttributeV15 := ⟨fun v => extent (v.param_id, v.param)⟩
instance : Fits Matl.AttributeV15.codec :=
  struct_fits (iso_fits (fun _ => rfl) inferInstance)
instance : Extent Matl.MatlEntryV15 := ⟨fun v => extent (v.material_label, v.attributes, v.shader_label)⟩
instance : Fits Matl.MatlEntryV15.codec :=
  struct_fits (iso_fits (fun _ => rfl) inferInstance)
instance : Extent Matl.BlendStateV16 := ⟨fun v => extent (v.source_color, v.color_operation, v.destination_color, v.source_alpha, v.alpha_operation, v.destination_alpha, v.alpha_sample_to_coverage, v.unk8, v.unk9, v.unk10)⟩
instance : Fits Matl.BlendStateV16.codec :=
  struct_fits (padAfterWrite_fits (iso_fits (fun _ => rfl) inferInstance))
instance : Fits Matl.FillMode.codec := by unfold Matl.FillMode.codec; infer_instance
instance : Extent Matl.RasterizerStateV16 := ⟨fun v => extent (v.fill_mode, v.cull_mode, v.depth_bias, v.unk4, v.unk5, v.unk6)⟩
instance : Fits Matl.RasterizerStateV16.codec :=
  struct_fits (padAfterWrite_fits (iso_fits (fun _ => rfl) inferInstance))
instance : Extent Matl.ParamV16 where
  extent
    | .Float v => extent v
    | .Boolean v => extent v
    | .Vector4 v => extent v
    | .Unk7 v => extent v
    | .String v => extent v
    | .Sampler v => extent v
    | .UvTransform v => extent v
    | .BlendState v => extent v
    | .RasterizerState v => extent v
instance : FitsT Matl.ParamV16.tagged where
  fits := by
    intro tag b p v q h
    unfold Matl.ParamV16.tagged at h
    refine ite_ok h (fun h => mapRead_fits h (fun _ => rfl) inferInstance) fun h => ?_
    refine ite_ok h (fun h => mapRead_fits h (fun _ => rfl) inferInstance) fun h => ?_
    refine ite_ok h (fun h => mapRead_fits h (fun _ => rfl) inferInstance) fun h => ?_
    refine ite_ok h (fun h => mapRead_fits h (fun _ => rfl) inferInstance) fun h => ?_
    refine ite_ok h (fun h => mapRead_fits h (fun _ => rfl) inferInstance) fun h => ?_
    refine ite_ok h (fun h => mapRead_fits h (fun _ => rfl) inferInstance) fun h => ?_
    refine ite_ok h (fun h => mapRead_fits h (fun _ => rfl) inferInstance) fun h => ?_
    refine ite_ok h (fun h => mapRead_fits h (fun _ => rfl) inferInstance) fun h => ?_
    refine ite_ok h (fun h => mapRead_fits h (fun _ => rfl) inferInstance) fun h => ?_
    cases h
instance : Extent Matl.AttributeV16 := ⟨fun v => extent (v.param_id, v.param)⟩
instance : Fits Matl.AttributeV16.codec :=
  struct_fits (iso_fits (fun _ => rfl) inferInstance)
instance : Extent Matl.MatlEntryV16 := ⟨fun v => extent (v.material_label, v.attributes, v.shader_label)⟩
instance : Fits Matl.MatlEntryV16.codec :=
  struct_fits (iso_fits (fun _ => rfl) inferInstance)
instance : Extent Matl.V15Data := ⟨fun v => extent v.entries⟩
instance : Fits Matl.V15Data.codec :=
  struct_fits (iso_fits (fun _ => rfl) inferInstance)
instance : Extent Matl.V16Data := ⟨fun v => extent v.entries⟩
instance : Fits Matl.V16Data.codec :=
  struct_fits (iso_fits (fun _ => rfl) inferInstance)
instance : Extent Matl where
  extent
    | .V15 v => extent v
    | .V16 v => extent v
instance : FitsF Matl.format where
  fits := by
    intro major minor b p v q h
    unfold Matl.format at h
    refine ite_ok h (fun h => mapRead_fits h (fun _ => rfl) inferInstance) fun h => ?_
    refine ite_ok h (fun h => mapRead_fits h (fun _ => rfl) inferInstance) fun h => ?_
    cases h
instance : Fits Nrpd.UnkFormat.codec := by unfold Nrpd.UnkFormat.codec; infer_instance
instance : Extent Nrpd.Framebuffer0 := ⟨fun v => extent (v.name, v.width, v.height, v.unk1, v.unk2, v.unk3)⟩
instance : Fits Nrpd.Framebuffer0.codec :=
  struct_fits (iso_fits (fun _ => rfl) inferInstance)
instance : Extent Nrpd.Framebuffer1 := ⟨fun v => extent (v.name, v.width, v.height, v.unk1, v.unk2, v.unk3)⟩
instance : Fits Nrpd.Framebuffer1.codec :=
  struct_fits (iso_fits (fun _ => rfl) inferInstance)
instance : Extent Nrpd.UniformBuffer := ⟨fun v => extent (v.name, v.unk1, v.unk2, v.unk3)⟩
instance : Fits Nrpd.UniformBuffer.codec :=
  struct_fits (iso_fits (fun _ => rfl) inferInstance)
instance : Extent Nrpd.Framebuffer3 := ⟨fun v => extent (v.name, v.width, v.height, v.unk1, v.unk2, v.unk3, v.unk4)⟩
instance : Fits Nrpd.Framebuffer3.codec :=
  struct_fits (iso_fits (fun _ => rfl) inferInstance)
instance : Extent Nrpd.Framebuffer4 := ⟨fun v => extent (v.name, v.width, v.height, v.unk3)⟩
instance : Fits Nrpd.Framebuffer4.codec :=
  struct_fits (iso_fits (fun _ => rfl) inferInstance)
instance : Extent Nrpd.FrameBuffer where
  extent
    | .Framebuffer0 v => extent v
    | .Framebuffer1 v => extent v
    | .UniformBuffer v => extent v
    | .Framebuffer3 v => extent v
    | .Framebuffer4 v => extent v
instance : FitsT Nrpd.FrameBuffer.tagged where
  fits := by
    intro tag b p v q h
    unfold Nrpd.FrameBuffer.tagged at h
    refine ite_ok h (fun h => mapRead_fits h (fun _ => rfl) inferInstance) fun h => ?_
    refine ite_ok h (fun h => mapRead_fits h (fun _ => rfl) inferInstance) fun h => ?_
    refine ite_ok h (fun h => mapRead_fits h (fun _ => rfl) inferInstance) fun h => ?_
    refine ite_ok h (fun h => mapRead_fits h (fun _ => rfl) inferInstance) fun h => ?_
    refine ite_ok h (fun h => mapRead_fits h (fun _ => rfl) inferInstance) fun h => ?_
    cases h
instance : Extent Nrpd.NrpdSampler := ⟨fun v => extent (v.name, v.data, v.unk13)⟩
instance : Fits Nrpd.NrpdSampler.codec :=
  struct_fits (iso_fits (fun _ => rfl) inferInstance)
instance : Extent Nrpd.NrpdRasterizerState := ⟨fun v => extent (v.name, v.fill_mode, v.cull_mode, v.depth_bias, v.unk4, v.unk5, v.unk6)⟩
instance : Fits Nrpd.NrpdRasterizerState.codec :=
  struct_fits (iso_fits (fun _ => rfl) inferInstance)
instance : Extent Nrpd.DepthState := ⟨fun v => extent (v.name, v.unk2, v.unk3, v.unk4, v.unk5, v.unk6, v.unk7, v.unk8, v.unk9, v.unk10, v.unk11)⟩
instance : Fits Nrpd.DepthState.codec :=
  struct_fits (iso_fits (fun _ => rfl) inferInstance)
instance : Extent Nrpd.NrpdBlendState := ⟨fun v => extent (v.name, v.source_color, v.unk2, v.destination_color, v.unk4, v.unk5, v.unk6, v.alpha_sample_to_coverage, v.unk8, v.unk9, v.unk10)⟩
instance : Fits Nrpd.NrpdBlendState.codec :=
  struct_fits (iso_fits (fun _ => rfl) inferInstance)
instance : Extent Nrpd.State where
  extent
    | .Sampler v => extent v
    | .RasterizerState v => extent v
    | .DepthState v => extent v
    | .BlendState v => extent v
instance : FitsT Nrpd.State.tagged where
  fits := by
    intro tag b p v q h
    unfold Nrpd.State.tagged at h
    refine ite_ok h (fun h => mapRead_fits h (fun _ => rfl) inferInstance) fun h => ?_
    refine ite_ok h (fun h => mapRead_fits h (fun _ => rfl) inferInstance) fun h => ?_
    refine ite_ok h (fun h => mapRead_fits h (fun _ => rfl) inferInstance) fun h => ?_
    refine ite_ok h (fun h => mapRead_fits h (fun _ => rfl) inferInstance) fun h => ?_
    cases h
instance : Extent Nrpd.RenderPassData0 := ⟨fun v => extent (v.unk1, v.unk2, v.unk3)⟩
instance : Fits Nrpd.RenderPassData0.codec :=
  struct_fits (iso_fits (fun _ => rfl) inferInstance)
instance : Extent Nrpd.RenderPassData1 := ⟨fun v => extent (v.unk1, v.unk2)⟩
instance : Fits Nrpd.RenderPassData1.codec :=
  struct_fits (iso_fits (fun _ => rfl) inferInstance)
instance : Extent Nrpd.RenderPassData2 := ⟨fun v => extent (v.unk1, v.unk2, v.unk3, v.unk4, v.unk5, v.unk6)⟩
instance : Fits Nrpd.RenderPassData2.codec :=
  struct_fits (iso_fits (fun _ => rfl) inferInstance)
instance : Extent Nrpd.Unk8Data := ⟨fun v => extent (v.unk1, v.unk2)⟩
instance : Fits Nrpd.Unk8Data.codec :=
  struct_fits (iso_fits (fun _ => rfl) inferInstance)
instance : Extent Nrpd.RenderPassData3 := ⟨fun v => extent (v.unk1, v.unk2, v.unk3, v.unk4, v.unk5, v.unk6)⟩
instance : Fits Nrpd.RenderPassData3.codec :=
  struct_fits (iso_fits (fun _ => rfl) inferInstance)
instance : Extent Nrpd.RenderPassData8 := ⟨fun v => extent (v.unk1, v.unk2, v.unk3, v.unk4, v.unk5, v.unk6)⟩
instance : Fits Nrpd.RenderPassData8.codec :=
  struct_fits (iso_fits (fun _ => rfl) inferInstance)
instance : Extent Nrpd.ColorClear := ⟨fun v => extent (v.name, v.color, v.unk1)⟩
instance : Fits Nrpd.ColorClear.codec :=
  struct_fits (iso_fits (fun _ => rfl) inferInstance)
instance : Extent Nrpd.DepthStencilClear := ⟨fun v => extent (v.name, v.depth, v.stencil)⟩
instance : Fits Nrpd.DepthStencilClear.codec :=
  struct_fits (iso_fits (fun _ => rfl) inferInstance)
instance : Extent Nrpd.Viewport := ⟨fun v => extent (v.name, v.unk2, v.width, v.height, v.unk_min, v.unk_max, v.unk4)⟩
instance : Fits Nrpd.Viewport.codec :=
  struct_fits (iso_fits (fun _ => rfl) inferInstance)
instance : Extent Nrpd.RenderPassData13 := ⟨fun v => extent (v.unk1, v.unk2, v.unk3, v.unk4, v.unk5, v.unk6)⟩
instance : Fits Nrpd.RenderPassData13.codec :=
  struct_fits (iso_fits (fun _ => rfl) inferInstance)
instance : Extent Nrpd.StringPair := ⟨fun v => extent (v.item1, v.item2)⟩
instance : Fits Nrpd.StringPair.codec :=
  struct_fits (iso_fits (fun _ => rfl) inferInstance)
instance : Extent Nrpd.RenderPassData19 := ⟨fun v => extent (v.unk1, v.unk2)⟩
instance : Fits Nrpd.RenderPassData19.codec :=
  struct_fits (iso_fits (fun _ => rfl) inferInstance)
instance : Extent Nrpd.RenderPassData where
  extent
    | .FramebufferRtp v => extent v
    | .PassUnk1 v => extent v
    | .UnkTexture1 v => extent v
    | .UnkLight v => extent v
    | .Unk8 v => extent v
    | .ColorClear v => extent v
    | .DepthStencilClear v => extent v
    | .Viewport v => extent v
    | .Sampler v => extent v
    | .BlendState v => extent v
    | .RasterizerState v => extent v
    | .DepthStencilState v => extent v
    | .FramebufferRenderTarget v => extent v
    | .FramebufferDepthStencil v => extent v
    | .UnkTexture2 v => extent v
instance : FitsT Nrpd.RenderPassData.tagged where
  fits := by
    intro tag b p v q h
    unfold Nrpd.RenderPassData.tagged at h
    refine ite_ok h (fun h => mapRead_fits h (fun _ => rfl) inferInstance) fun h => ?_
    refine ite_ok h (fun h => mapRead_fits h (fun _ => rfl) inferInstance) fun h => ?_
    refine ite_ok h (fun h => mapRead_fits h (fun _ => rfl) inferInstance) fun h => ?_
    refine ite_ok h (fun h => mapRead_fits h (fun _ => rfl) inferInstance) fun h => ?_
    refine ite_ok h (fun h => mapRead_fits h (fun _ => rfl) inferInstance) fun h => ?_
    refine ite_ok h (fun h => mapRead_fits h (fun _ => rfl) inferInstance) fun h => ?_
    refine ite_ok h (fun h => mapRead_fits h (fun _ => rfl) inferInstance) fun h => ?_
    refine ite_ok h (fun h => mapRead_fits h (fun _ => rfl) inferInstance) fun h => ?_
    refine ite_ok h (fun h => mapRead_fits h (fun _ => rfl) inferInstance) fun h => ?_
    refine ite_ok h (fun h => mapRead_fits h (fun _ => rfl) inferInstance) fun h => ?_
    refine ite_ok h (fun h => mapRead_fits h (fun _ => rfl) inferInstance) fun h => ?_
    refine ite_ok h (fun h => mapRead_fits h (fun _ => rfl) inferInstance) fun h => ?_
    refine ite_ok h (fun h => mapRead_fits h (fun _ => rfl) inferInstance) fun h => ?_
    refine ite_ok h (fun h => mapRead_fits h (fun _ => rfl) inferInstance) fun h => ?_
    refine ite_ok h (fun h => mapRead_fits h (fun _ => rfl) inferInstance) fun h => ?_
    cases h
instance : Extent Nrpd.Unk3Data := ⟨fun v => extent (v.unk1, v.unk2, v.unk3, v.unk4, v.unk5, v.unk6)⟩
instance : Fits Nrpd.Unk3Data.codec :=
  struct_fits (iso_fits (fun _ => rfl) inferInstance)
instance : Extent Nrpd.RenderPassUnkData where
  extent
    | .UnkDataUnk0 v => extent v
    | .UnkDataUnk3 v => extent v
instance : FitsT Nrpd.RenderPassUnkData.tagged where
  fits := by
    intro tag b p v q h
    unfold Nrpd.RenderPassUnkData.tagged at h
    refine ite_ok h (fun h => mapRead_fits h (fun _ => rfl) inferInstance) fun h => ?_
    refine ite_ok h (fun h => mapRead_fits h (fun _ => rfl) inferInstance) fun h => ?_
    cases h
instance : Extent Nrpd.RenderPassContainer := ⟨fun v => extent (v.name, v.unk1, v.unk2, v.unk3)⟩
instance : Fits Nrpd.RenderPassContainer.codec :=
  struct_fits (padAfter_fits (iso_fits (fun _ => rfl) inferInstance))
instance : Extent Nrpd.UnkItem20 := ⟨fun v => extent (v.unk1, v.unk2)⟩
instance : Fits Nrpd.UnkItem20.codec :=
  struct_fits (iso_fits (fun _ => rfl) inferInstance)
instance : Extent Nrpd.UnkItem21 := ⟨fun v => extent (v.unk1, v.unk2, v.unk3)⟩
instance : Fits Nrpd.UnkItem21.codec :=
  struct_fits (iso_fits (fun _ => rfl) inferInstance)
instance : Extent Nrpd.UnkItem22 := ⟨fun v => extent (v.unk1, v.unk2, v.unk3, v.unk4, v.unk5, v.unk6, v.unk8)⟩
instance : Fits Nrpd.UnkItem22.codec :=
  struct_fits (iso_fits (fun _ => rfl) inferInstance)
instance : Extent Nrpd.UnkItem24 := ⟨fun v => extent (v.unk1, v.unk2, v.unk3)⟩
instance : Fits Nrpd.UnkItem24.codec :=
  struct_fits (iso_fits (fun _ => rfl) inferInstance)
instance : Extent Nrpd.UnkItem2 where
  extent
    | .UnkItem20 v => extent v
    | .UnkItem21 v => extent v
    | .UnkItem22 v => extent v
    | .UnkItem24 v => extent v
instance : FitsT Nrpd.UnkItem2.tagged where
  fits := by
    intro tag b p v q h
    unfold Nrpd.UnkItem2.tagged at h
    refine ite_ok h (fun h => mapRead_fits h (fun _ => rfl) inferInstance) fun h => ?_
    refine ite_ok h (fun h => mapRead_fits h (fun _ => rfl) inferInstance) fun h => ?_
    refine ite_ok h (fun h => mapRead_fits h (fun _ => rfl) inferInstance) fun h => ?_
    refine ite_ok h (fun h => mapRead_fits h (fun _ => rfl) inferInstance) fun h => ?_
    cases h
instance : Extent Nrpd.UnkItem3 := ⟨fun v => extent (v.name, v.value)⟩
instance : Fits Nrpd.UnkItem3.codec :=
  struct_fits (iso_fits (fun _ => rfl) inferInstance)
instance : Extent Nrpd.UnkItem1 := ⟨fun v => extent (v.unk1, v.unk2)⟩
instance : Fits Nrpd.UnkItem1.codec :=
  struct_fits (iso_fits (fun _ => rfl) inferInstance)
instance : Extent Nrpd.V16Data := ⟨fun v => extent (v.frame_buffers, v.state_containers, v.render_passes, v.unk_string_list1, v.unk_string_list2, v.unk_list, v.unk_width1, v.unk_height1, v.unk3, v.unk4, v.unk5, v.unk6, v.unk7, v.unk8, v.unk9, v.unk_width2, v.unk_height2, v.unk10)⟩
instance : Fits Nrpd.V16Data.codec :=
  struct_fits (iso_fits (fun _ => rfl) inferInstance)
instance : Extent Nrpd where
  extent
    | .V16 v => extent v
instance : FitsF Nrpd.format where
  fits := by
    intro major minor b p v q h
    unfold Nrpd.format at h
    refine ite_ok h (fun h => mapRead_fits h (fun _ => rfl) inferInstance) fun h => ?_
    cases h

end Verif
