import Verif.Formats.Extent
import Verif.Formats.MeshEx
import Verif.Formats.Adj
import Verif.Props.Files
import Verif.Props.DataFiles
import Verif.Props.MeshData
/-!
# Sizes of what is read, and mesh files

C51, and the parts of C45 and C50 for files of MeshData.
-/

namespace Verif

instance : Extent Ssbh where
  extent
    | .Hlpb v => extent v
    | .Matl v => extent v
    | .Modl v => extent v
    | .Mesh v => extent v
    | .Skel v => extent v
    | .Anim v => extent v
    | .Nlst v => extent v
    | .Nrpd v => extent v
    | .Nufx v => extent v
    | .Shdr v => extent v

instance : Extent MeshEx.MeshEntry := ⟨fun v => extent (v.mesh_object_group_index, v.unk1)⟩
instance : Fits MeshEx.MeshEntry.codec := struct_fits (iso_fits (fun _ => rfl) inferInstance)
instance : Extent MeshEx.AllData := ⟨fun v => extent (v.bounding_sphere, v.name)⟩
instance : Fits MeshEx.AllData.codec := struct_fits (iso_fits (fun _ => rfl) inferInstance)
instance : Extent MeshEx.MeshObjectGroup :=
  ⟨fun v => extent (v.bounding_sphere, v.mesh_object_full_name, v.mesh_object_name)⟩
instance : Fits MeshEx.MeshObjectGroup.codec := struct_fits (iso_fits (fun _ => rfl) inferInstance)
instance : Extent MeshEx :=
  ⟨fun v => extent (v.all_data, v.mesh_object_groups, v.entries, v.entry_flags, v.unk1)⟩
instance : Extent Adj.AdjEntry := ⟨fun v => extent (v.mesh_object_index, v.index_buffer_offset)⟩
instance : Fits Adj.AdjEntry.codec := struct_fits (iso_fits (fun _ => rfl) inferInstance)
instance : Extent Adj := ⟨fun v => extent (v.entries, v.index_buffer)⟩

instance : Adv MeshEx.MeshEntry.codec := by unfold MeshEx.MeshEntry.codec; infer_instance
instance : Adv MeshEx.MeshObjectGroup.codec := by unfold MeshEx.MeshObjectGroup.codec; infer_instance
instance : Adv Adj.AdjEntry.codec := by unfold Adj.AdjEntry.codec; infer_instance

theorem vecN_extent [Extent α] {a : Codec α} [Fits a] [hadv : Adv a] {n : Nat} {b : Bytes} {p : Nat} {vs : List α} {q : Nat}
    (h : readElems a n b p = .ok (vs, q)) : extent vs ≤ b.length := by
  obtain ⟨k, -, hk, hA⟩ := hadv.adv
  obtain ⟨h2, -, h3⟩ := readElems_adv hA _ _ _ _ _ h
  exact list_extent_le.mpr ⟨by rw [h2]; exact elems_le hk (fun h => by have := h3 h; omega), readElems_fits h⟩

instance [Extent α] {a : Codec α} [Fits a] [Adv a] : Fits (vecN n a) := ⟨vecN_extent⟩

instance : Fits (MeshEx.flagsCodec n) := inferInstanceAs (Fits (struct 16 (vecN n bitfield16)))
instance : Fits (MeshEx.rest m n) := by unfold MeshEx.rest; infer_instance

theorem readI16s_length : ∀ b : Bytes, (Adj.readI16s b).length ≤ b.length
  | [] => by simp [Adj.readI16s]
  | [_] => by simp [Adj.readI16s]
  | _ :: _ :: b => by
    have := readI16s_length b
    simp only [Adj.readI16s, List.length_cons]
    omega

theorem readVersioned_fits [Extent α] {f : Format α} [hf : FitsF f] {b : Bytes} {p : Nat} {v : α}
    (h : f.readVersioned b p = .ok v) : extent v ≤ b.length := by
  simp only [Format.readVersioned] at h
  split at h
  · cases h
  split at h
  · cases h
  split at h
  · cases h
  rename_i hr
  cases h
  exact hf.fits _ _ _ _ _ _ hr

namespace Props

/-! ## C51 -/

/-- No list, buffer or string in a value read from an SSBH file is longer than the file. -/
theorem C51_ssbh (b : Bytes) (s : Ssbh) (h : Ssbh.read b = .ok s) : extent s ≤ b.length := by
  rw [Ssbh.read_eq] at h
  split at h
  · cases h
  obtain ⟨v, rfl, -, hr⟩ | ⟨v, rfl, -, hr⟩ | ⟨v, rfl, -, hr⟩ | ⟨v, rfl, -, hr⟩ | ⟨v, rfl, -, hr⟩ |
    ⟨v, rfl, -, hr⟩ | ⟨v, rfl, -, hr⟩ | ⟨v, rfl, -, hr⟩ | ⟨v, rfl, -, hr⟩ | ⟨v, rfl, -, hr⟩ := Ssbh.readData_cases h <;>
  (have := readVersioned_fits hr; exact this)

/-- The same for MeshEx files. -/
theorem C51_meshex (b : Bytes) (m : MeshEx) (h : MeshEx.read b = .ok m) : extent m ≤ b.length := by
  simp only [MeshEx.read] at h
  split at h
  · cases h
  split at h
  · cases h
  rename_i hr
  cases h
  have := Fits.fits hr
  exact this

/-- The same for Adj files. -/
theorem C51_adj (b : Bytes) (a : Adj) (h : Adj.read b = .ok a) : extent a ≤ b.length := by
  simp only [Adj.read] at h
  split at h
  · cases h
  split at h
  · cases h
  rename_i entries p hr
  cases h
  refine Nat.max_le.mpr ⟨vecN_extent hr, list_extent_le.mpr ⟨?_, fun _ _ => Nat.zero_le _⟩⟩
  have := readI16s_length (b.drop p)
  simp only [List.length_drop] at this
  show (Adj.readI16s (b.drop p)).length ≤ _
  omega

/-! ## Mesh files -/

theorem prod_extent [Extent α] [Extent β] (x : α) (y : β) : extent (x, y) = max (extent x) (extent y) := rfl

open MeshData

theorem inner_extent {A Wt : Type} [Extent A] [Extent Wt] (m : Mesh.MeshInner A Wt) :
    extent m.objects ≤ extent m ∧ extent m.vertex_buffers ≤ extent m ∧ extent m.index_buffer ≤ extent m := by
  simp only [show extent m = extent (m.model_name, m.bounding_info, m.unk1, m.objects, m.buffer_sizes,
    m.polygon_index_size, m.vertex_buffers, m.index_buffer, m.rigging_buffers) from rfl]
  simp only [prod_extent]
  omega

theorem object_extent {A : Type} [Extent A] (o : Mesh.MeshObject A) : extent o.attributes ≤ extent o := by
  simp only [show extent o = extent (o.name, o.subindex, o.parent_bone_name, o.vertex_count, o.vertex_index_count, o.unk2,
    o.vertex_buffer0_offset, o.vertex_buffer1_offset, o.vertex_buffer2_offset, o.vertex_buffer3_offset, o.stride0, o.stride1,
    o.stride2, o.stride3, o.index_buffer_offset, o.unk8, o.draw_element_type, o.use_vertex_skinning, o.sort_bias,
    o.depth_flags, o.bounding_info, o.attributes) from rfl]
  simp only [prod_extent]
  iterate 21 refine Nat.le_trans ?_ (Nat.le_max_right _ _)
  exact Nat.le_refl _

theorem small_of_extent {m : Mesh} (h : extent m < 2 ^ 32) : Small m := by
  have key : ∀ {A Wt : Type} [Extent A] [Extent Wt] (i : Mesh.MeshInner A Wt), extent i < 2 ^ 32 →
      (∀ b ∈ i.vertex_buffers, b.length < 2 ^ 32) ∧ i.index_buffer.length < 2 ^ 32 := by
    intro A Wt _ _ i hi
    obtain ⟨-, h1, h2⟩ := inner_extent i
    refine ⟨?_, ?_⟩
    · intro b hb
      have := (list_extent_le.mp h1).2 b hb
      rw [bytes_extent] at this
      omega
    · rw [bytes_extent] at h2
      omega
  cases m with
  | V8 i => exact key i h
  | V9 i => exact key i h
  | V10 i => exact key i h

theorem layout_length (b : Nat) : ∀ (o : Nat) (l : List Item), (layout b o l).length = l.length
  | _, [] => rfl
  | o, it :: l => by simp [layout, layout_length b _ l]

theorem attributesV8_length (F : FloatConv) (o : MeshObjectData) (u : AttributeUsage) (hu : u ≠ .Binormal) :
    (attributesOf o u).length ≤ (createAttributesV8 F o).attributes.length := by
  have h := congrArg List.length (laidV8 F o).attributes
  simp only [List.length_map, List.length_append, layout_length, items0V8, items1V8, itemsOf,
    List.length_zipIdx] at h
  rw [h]
  cases u <;> first | exact absurd rfl hu | (simp only [attributesOf]; omega)

theorem createMeshObjectsFrom_attributes {A : Type} {bounds : List (Vector F32 3) → Mesh.BoundingInfo}
    {ca : MeshObjectData → MeshAttributes A} : ∀ {objects : List MeshObjectData} {s t : BufferState}
    {os : List (Mesh.MeshObject A)}, createMeshObjectsFrom bounds ca objects s = .ok (os, t) →
    ∀ o ∈ objects, ∃ o' ∈ os, o'.attributes = (ca o).attributes
  | [], s, t, os, h => by simp
  | data :: rest, s, t, os, h => by
    simp only [createMeshObjectsFrom] at h
    split at h
    · cases h
    rename_i o s1 ho
    split at h
    · cases h
    rename_i os' s2 hos
    cases h
    obtain ⟨-, -, -, -, -, ha, -⟩ := createMeshObject_ok ho
    simp only [List.mem_cons, forall_eq_or_imp]
    refine ⟨⟨o, .inl rfl, ha⟩, ?_⟩
    intro x hx
    obtain ⟨o', h1, h2⟩ := createMeshObjectsFrom_attributes hos x hx
    exact ⟨o', .inr h1, h2⟩

theorem few_of_extent {F : FloatConv} {bounds : List (Vector F32 3) → Mesh.BoundingInfo} {d : MeshData} {m : Mesh}
    (h : toMesh F bounds d = .ok m) (he : extent m < 2 ^ 32) : FewAttributes d := by
  intro h8 o ho u hu
  simp only [toMesh] at h
  split at h
  · cases h
  split at h
  · rename_i hv
    rw [h8] at hv
    exact absurd hv.2 (by decide)
  split at h
  · split at h
    · cases h
    rename_i v hv
    obtain ⟨mi, hm, rfl⟩ := except_map_ok h
    simp only [createMeshObjects] at hv
    split at hv
    · cases hv
    rename_i os s hos
    cases hv
    obtain ⟨o', ho', hat⟩ := createMeshObjectsFrom_attributes hos o ho
    simp only [createMeshInner] at hm
    split at hm
    · cases hm
    cases hm
    have h1 := (inner_extent _).1.trans (Nat.le_of_lt he)
    have h2 := (list_extent_le.mp h1).2 o' ho'
    have h3 := (list_extent_le.mp ((object_extent o').trans h2)).1
    rw [hat] at h3
    exact (attributesV8_length F o u hu).trans h3
  · rename_i hv
    split at h
    · rename_i hv'
      rw [h8] at hv'
      exact absurd hv'.2 (by decide)
    · cases h

/-- A mesh file of less than 4 GiB is read as it was written, apart from the precision of components, text after null
characters, and what version 1.8 does not store. -/
theorem C45_mesh (F : FloatConv) (bounds : List (Vector F32 3) → Mesh.BoundingInfo) (d : MeshData) (bytes : Bytes)
    (h : d.write F bounds = .ok bytes) (hl : bytes.length < 2 ^ 32)
    (hn : d.objects.Pairwise fun a b => ¬ (cutNul a.name = cutNul b.name ∧ a.subindex = b.subindex)) :
    MeshData.read F bytes = .ok { d with objects := d.objects.map (storedObject F d.minor_version) } := by
  simp only [MeshData.write] at h
  split at h
  · cases h
  rename_i m hm
  have hr := C01_format_round_trip m bytes (liftWrite_ok.mp h)
  have he : extent m < 2 ^ 32 := by
    have := C51_ssbh bytes _ (C08_foreign_rejected bytes m hr).1
    exact Nat.lt_of_le_of_lt this hl
  rw [MeshData.read, hr]
  simp only [liftRead, C48_round_trip F bounds d m hm (small_of_extent he) (few_of_extent hm he) hn]

/-- Opening a mesh file that was written by the library and saving it again does not change the data. -/
theorem C50_file (F : FloatConv) (hF : Stable F) (bounds : List (Vector F32 3) → Mesh.BoundingInfo) (d d' : MeshData)
    (bytes bytes' : Bytes) (h : d.write F bounds = .ok bytes) (hl : bytes.length < 2 ^ 32)
    (hn : d.objects.Pairwise fun a b => ¬ (cutNul a.name = cutNul b.name ∧ a.subindex = b.subindex))
    (hr : MeshData.read F bytes = .ok d') (h' : d'.write F bounds = .ok bytes') (hl' : bytes'.length < 2 ^ 32) :
    MeshData.read F bytes' = .ok d' := by
  rw [C45_mesh F bounds d bytes h hl hn] at hr
  cases hr
  rw [C45_mesh F bounds _ bytes' h' hl']
  · simp only [List.map_map]
    congr 2
    apply List.map_congr_left
    intro o _
    exact storedObject_twice hF _ o
  · rw [List.pairwise_map]
    refine hn.imp ?_
    intro a b hab
    simpa only [storedObject, cutNul_idem] using hab

/-- The conditions of C45_mesh and C50_file for each version, with a second save. -/
example : ∃ bytes, (exampleMesh 8 "b" "a").write exampleConv exampleBounds = .ok bytes := isOk_iff.mp (by decide +kernel)
example : ∃ bytes, (exampleMesh 9 "b" "a").write exampleConv exampleBounds = .ok bytes := isOk_iff.mp (by decide +kernel)
example : ∃ bytes, (exampleMesh 10 "b" "a").write exampleConv exampleBounds = .ok bytes := isOk_iff.mp (by decide +kernel)

/-- The limit of C45_anim on track data as a limit on the length of the file. -/
theorem C45_anim_file (F : FloatOps) (d : AnimData) (bytes : Bytes) (h : d.write F = .ok bytes)
    (hl : ∀ t ∈ dataTracks d.groups, t.values.len < 2 ^ 32) (hb : bytes.length < 2 ^ 32) :
    ∃ f, (∀ t, Kept F t (f t)) ∧
      AnimData.read F bytes = some (.ok { d with groups := mapTracks f d.groups }) := by
  refine C45_anim F d bytes h hl ?_
  intro anim groups buffer ha hp
  simp only [AnimData.write, ha] at h
  have hr := C01_format_round_trip anim bytes (liftWrite_ok.mp h)
  have he : extent anim < 2 ^ 32 :=
    Nat.lt_of_le_of_lt (C51_ssbh bytes _ (C08_foreign_rejected bytes anim hr).1) hb
  cases anim with
  | V12 a => cases hp
  | V20 a =>
    cases hp
    simp only [show extent (Anim.V20 a) = extent (a.final_frame_index, a.unk1, a.unk2, a.name, a.groups, a.buffer) from rfl,
      prod_extent, bytes_extent] at he
    omega
  | V21 a =>
    cases hp
    simp only [show extent (Anim.V21 a) = extent (a.final_frame_index, a.unk1, a.unk2, a.name, a.groups, a.buffer,
      a.unk_data) from rfl, prod_extent, bytes_extent] at he
    omega

end Props
end Verif
