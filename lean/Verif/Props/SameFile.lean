import Verif.Props.Resave
/-!
# Saving an opened file again

C81: a file which was saved by the library, opened and saved again is the same file, byte for byte.
-/

namespace Verif

theorem CStr.ext : ∀ {a b : CStr}, a.bytes = b.bytes → a = b
  | ⟨_, _⟩, ⟨_, _⟩, rfl => rfl

theorem fromBytes_cutNul (s : String) : CStr.fromBytes (textBytes (cutNul s)) = CStr.fromBytes (textBytes s) := by
  apply CStr.ext
  rw [fromBytes_textBytes, fromBytes_textBytes, cutNul_idem]

theorem ssbhText_cutNul (s : String) : ssbhText (cutNul s) = ssbhText s := by
  rw [ssbhText, fromBytes_cutNul, ssbhText]

namespace Props
open MeshData

theorem C81_modl (d d' : ModlData) (bytes : Bytes) (h : d.write = .ok bytes) (hr : ModlData.read bytes = .ok d') :
    d'.write = .ok bytes := by
  rw [C45_modl d bytes h] at hr
  cases hr
  rw [← h]
  have ht : ssbhText ∘ cutNul = ssbhText := funext ssbhText_cutNul
  simp only [ModlData.write, ModlData.toModl, mapModlText, ssbhText_cutNul, List.map_map, Option.map_map, ht]
  congr 4
  apply List.map_congr_left
  intro e _
  simp only [Function.comp, ModlData.ModlEntryData.toEntry, ssbhText_cutNul]

theorem C81_hlpb (d d' : HlpbData) (bytes : Bytes) (h : d.write = .ok bytes) (hr : HlpbData.read bytes = .ok d') :
    d'.write = .ok bytes := by
  rw [C45_hlpb d bytes h] at hr
  cases hr
  rw [← h]
  have h1 : HlpbData.AimConstraintData.toAim ∘ mapAimText cutNul = HlpbData.AimConstraintData.toAim := by
    funext a; simp only [Function.comp, mapAimText, HlpbData.AimConstraintData.toAim, ssbhText_cutNul]
  have h2 : HlpbData.OrientConstraintData.toOrient ∘ mapOrientText cutNul = HlpbData.OrientConstraintData.toOrient := by
    funext a; simp only [Function.comp, mapOrientText, HlpbData.OrientConstraintData.toOrient, ssbhText_cutNul]
  simp only [HlpbData.write, HlpbData.toHlpb, List.map_map, h1, h2, List.length_map]

theorem C81_matl (d d' : MatlData) (bytes : Bytes) (h : d.write = .ok bytes) (hr : MatlData.read bytes = .ok d') :
    d'.write = .ok bytes := by
  obtain ⟨⟨h1, h2⟩, hr'⟩ := C45_matl d bytes h
  rw [hr'] at hr
  cases hr
  rw [← h]
  have he : MatlData.MatlEntryData.toV16 ∘ mapEntryText cutNul = MatlData.MatlEntryData.toV16 := by
    funext e
    simp only [Function.comp, mapEntryText, MatlData.MatlEntryData.toV16, ssbhText_cutNul, List.map_map]
    congr 4
    funext t
    simp only [Function.comp, MatlData.attrV16, ssbhText_cutNul]
  simp only [MatlData.write, MatlData.toMatl, h1, h2, List.map_map, he, and_self, if_true]

/-! ## Skeletons -/

theorem worldLoop_names (O : MatOps Matrix4x4) (bones : List SkelData.BoneData) (f : String → String) :
    ∀ (fuel : Nat) (b : SkelData.BoneData) (t : Matrix4x4) (v : List Nat),
      SkelData.worldLoop O (bones.map fun b => { b with name := f b.name }) fuel { b with name := f b.name } t v =
        SkelData.worldLoop O bones fuel b t v
  | 0, _, _, _ => rfl
  | fuel + 1, b, t, v => by
    simp only [SkelData.worldLoop]
    cases b.parent_index with
    | none => rfl
    | some p =>
      simp only [List.getElem?_map]
      split
      · rfl
      · cases bones[p]? with
        | none => rfl
        | some q => exact worldLoop_names O bones f fuel q _ _

theorem C81_skel (O : MatOps Matrix4x4) (d d' : SkelData) (bytes : Bytes) (h : d.write O = .ok bytes)
    (hp : ∀ b ∈ d.bones, ∀ p, b.parent_index = some p → p < 2 ^ 15) (hr : SkelData.read bytes = .ok d') :
    d'.write O = .ok bytes := by
  rw [C45_skel O d bytes h] at hr
  cases hr
  rw [← h]
  have hm : (d.bones.map fun b => { b with name := cutNul b.name, parent_index := storedParent b.parent_index }) =
      d.bones.map fun b => { b with name := cutNul b.name } := by
    apply List.map_congr_left
    intro b hb
    have := hp b hb
    congr 1
    cases hq : b.parent_index with
    | none => rfl
    | some p =>
      have := this p hq
      rw [storedParent, if_pos (by omega)]
      congr 1
      omega
  rw [hm]
  have hw : SkelData.toSkel O ⟨1, 0, d.bones.map fun b => { b with name := cutNul b.name }⟩ = SkelData.toSkel O d := by
    simp only [SkelData.toSkel, List.map_map]
    have : (SkelData.worldTransform O ⟨1, 0, d.bones.map fun b => { b with name := cutNul b.name }⟩ ∘
        fun b : SkelData.BoneData => { b with name := cutNul b.name }) = SkelData.worldTransform O d := by
      funext b
      simp only [Function.comp, SkelData.worldTransform, List.length_map]
      exact worldLoop_names O d.bones cutNul _ b _ _
    rw [this]
    rw [List.zipIdx_map, List.map_map]
    simp only [Function.comp_def, Prod.map, id, ssbhText_cutNul]
  simp only [SkelData.write, hw]

theorem C81_meshex (sphereOf : List Mesh.BoundingSphere → Mesh.BoundingSphere) (d d' : MeshExData) (bytes : Bytes)
    (h : d.write sphereOf = .ok bytes) (hg : d.mesh_object_groups.length < 2 ^ 32)
    (hf : (d.mesh_object_groups.map (·.entry_flags.length)).sum < 2 ^ 32) (hr : MeshExData.read bytes = .ok d') :
    d'.write sphereOf = .ok bytes := by
  rw [C45_meshex sphereOf d bytes h hg hf] at hr
  cases hr
  rw [← h]
  simp only [MeshExData.write, MeshExData.toMeshEx, List.map_map, List.zipIdx_map, List.flatMap_map, fromBytes_cutNul,
    Function.comp_def, Prod.map, id]

theorem C81_adj (d d' : AdjData) (bytes : Bytes) (h : d.write = .ok bytes) (hn : d.entries.length < 2 ^ 32)
    (hi : ∀ e ∈ d.entries, e.mesh_object_index < 2 ^ 32)
    (ho : ∀ p e q, d.entries = p ++ e :: q → 2 * adjTotal p < 2 ^ 32) (hr : AdjData.read bytes = .ok d') :
    d'.write = .ok bytes := by
  rw [C45_adj d bytes h hn hi ho] at hr
  cases hr
  exact h

/-! ## Meshes -/

/-- Names only matter through `key`. -/
theorem createBufferAttributes_names {U D V A K : Type} (key : String → K) (create : String → Nat → UInt32 → U → D → Nat → A)
    (hc : ∀ n n', key n = key n' → create n = create n') (dataType : V → D) (size : A → Nat) (b : UInt32) :
    ∀ (l l' : List (String × Nat × U × V)) (offset : Nat),
      (l.map fun x => (key x.1, x.2)) = (l'.map fun x => (key x.1, x.2)) →
      createBufferAttributes create dataType size b offset l = createBufferAttributes create dataType size b offset l'
  | [], [], _, _ => rfl
  | [], _ :: _, _, h => by cases h
  | _ :: _, [], _, h => by cases h
  | (n, i, u, v) :: l, (n', i', u', v') :: l', offset, h => by
    simp only [List.map_cons, List.cons.injEq, Prod.mk.injEq] at h
    obtain ⟨⟨hk, rfl, rfl, rfl⟩, h⟩ := h
    simp only [createBufferAttributes, hc n n' hk]
    rw [createBufferAttributes_names key create hc dataType size b l l' _ h]

theorem numbered_names {U V K : Type} (key : String → K) (F : FloatConv) (minor : UInt16) (u : AttributeUsage)
    (l : List AttributeData) (us : U) (f : VectorData → V) (hb : ¬ (minor = 8 ∧ u = .Binormal))
    (hk : ∀ n i, key (if minor = 8 then numberedName u i else cutNul n) = key n)
    (hf : ∀ v, f (mapComponents (fun n x => (precision minor u n).round F x) v) = f v) :
    ((numbered (stored F minor u l) us f).map fun x => (key x.1, x.2)) = (numbered l us f).map fun x => (key x.1, x.2) := by
  simp only [numbered, stored, hb, if_false]
  apply List.ext_getElem?
  intro i
  simp only [List.getElem?_map, List.getElem?_zipIdx, Option.map_map, Nat.zero_add]
  cases l[i]? with
  | none => rfl
  | some a => simp only [Option.map_some, Function.comp, hk, hf]

theorem map_vec_id {n : Nat} (l : List (Vector F32 n)) : l.map (fun v => v.map fun x => x) = l := by
  have : (fun v : Vector F32 n => v.map fun x => x) = id := by
    funext v; exact Vector.map_id v
  rw [this, List.map_id]

theorem mapComponents_position (F : FloatConv) (minor : UInt16) (v : VectorData) :
    mapComponents (fun n x => (precision minor .Position n).round F x) v = v := by
  cases v <;> simp only [mapComponents, precision, Precision.round, map_vec_id]

theorem colors10 {F : FloatConv} (h : Stable F) (v : VectorData) :
    VectorDataV10.fromColors F (mapComponents (fun n x => (precision 10 .ColorSet n).round F x) v) =
      VectorDataV10.fromColors F v := by
  cases v <;> simp [mapComponents, precision, Precision.round, VectorDataV10.fromColors, Function.comp_def,
    h.half, h.byte]

theorem vectors10 {F : FloatConv} (h : Stable F) (u : AttributeUsage) (hp : u ≠ .Position) (hc : u ≠ .ColorSet) (v : VectorData) :
    VectorDataV10.fromVectors F (mapComponents (fun n x => (precision 10 u n).round F x) v) =
      VectorDataV10.fromVectors F v := by
  cases u <;> first | exact absurd rfl hp | exact absurd rfl hc |
    (cases v <;> simp [mapComponents, precision, Precision.round, VectorDataV10.fromVectors, Function.comp_def,
    h.half])

theorem colors8 {F : FloatConv} (h : Stable F) (minor : UInt16) (hm : minor ≠ 10) (v : VectorData) :
    VectorDataV8.fromColors F (mapComponents (fun n x => (precision minor .ColorSet n).round F x) v) =
      VectorDataV8.fromColors F v := by
  cases v <;> simp [mapComponents, precision, Precision.round, VectorDataV8.fromColors, Function.comp_def,
    h.byte, hm]

theorem vectors8 {F : FloatConv} (h : Stable F) (minor : UInt16) (hm : minor ≠ 10) (u : AttributeUsage) (hp : u ≠ .Position)
    (hc : u ≠ .ColorSet) (v : VectorData) :
    VectorDataV8.fromVectors F (mapComponents (fun n x => (precision minor u n).round F x) v) =
      VectorDataV8.fromVectors F v := by
  cases u <;> first | exact absurd rfl hp | exact absurd rfl hc |
    (cases v <;> simp [mapComponents, precision, Precision.round, VectorDataV8.fromVectors, Function.comp_def,
    h.half, hm])

/-- The same entries, with names which have the same `key`. -/
def SameNames {U V K : Type} (key : String → K) (l l' : List (String × Nat × U × V)) : Prop :=
  (l.map fun x => (key x.1, x.2)) = l'.map fun x => (key x.1, x.2)

theorem SameNames.append {U V K : Type} {key : String → K} {a a' b b' : List (String × Nat × U × V)}
    (h : SameNames key a a') (h' : SameNames key b b') : SameNames key (a ++ b) (a' ++ b') := by
  unfold SameNames at *
  rw [List.map_append, List.map_append, h, h']

theorem createAttributesFromData_names {U D V A K : Type} (key : String → K)
    (create : String → Nat → UInt32 → U → D → Nat → A) (hc : ∀ n n', key n = key n' → create n = create n')
    (dataType : V → D) (size : A → Nat) (versioned : List V → VersionedVectorData) (useBuffer2 : Bool)
    {l0 l0' l1 l1' : List (String × Nat × U × V)} (h0 : SameNames key l0 l0') (h1 : SameNames key l1 l1') :
    createAttributesFromData l0 l1 useBuffer2 (fun data i => createBufferAttributes create dataType size i 0 data) size versioned =
      createAttributesFromData l0' l1' useBuffer2 (fun data i => createBufferAttributes create dataType size i 0 data) size
        versioned := by
  have e0 := createBufferAttributes_names key create hc dataType size 0 l0 l0' 0 h0
  have e1 := createBufferAttributes_names key create hc dataType size 1 l1 l1' 0 h1
  simp only [createAttributesFromData, e0, e1]

theorem createAttributesV8_stored {F : FloatConv} (h : Stable F) (o : MeshObjectData) :
    createAttributesV8 F (storedObject F 8 o) = createAttributesV8 F o := by
  have hn : ∀ (u : AttributeUsage) (us : Mesh.AttributeUsageV8) (l : List AttributeData) (f : VectorData → VectorDataV8),
      u ≠ .Binormal → (∀ v, f (mapComponents (fun n x => (precision 8 u n).round F x) v) = f v) →
      SameNames (fun _ => ()) (numbered (stored F 8 u l) us f) (numbered l us f) :=
    fun u us l f hu hf => numbered_names (fun _ => ()) F 8 u l us f (fun h => hu h.2) (fun _ _ => rfl) hf
  have hv := fun u hp hc => vectors8 h 8 (by decide) u hp hc
  refine createAttributesFromData_names (fun _ => ()) createAttributeV8 (fun _ _ _ => rfl) _ _ _ _ ?_ ?_
  · refine .append (.append ?_ ?_) ?_
    · exact hn .Position _ _ _ (by decide) (fun v => by rw [mapComponents_position])
    · exact hn .Normal _ _ _ (by decide) (hv _ (by decide) (by decide))
    · exact hn .Tangent _ _ _ (by decide) (hv _ (by decide) (by decide))
  · refine .append ?_ ?_
    · exact hn .TextureCoordinate _ _ _ (by decide) (hv _ (by decide) (by decide))
    · exact hn .ColorSet _ _ _ (by decide) (colors8 h 8 (by decide))

theorem createAttributesV9_stored {F : FloatConv} (h : Stable F) (o : MeshObjectData) :
    createAttributesV9 F (storedObject F 9 o) = createAttributesV9 F o := by
  have hn : ∀ (u : AttributeUsage) (us : Mesh.AttributeUsageV9) (l : List AttributeData) (f : VectorData → VectorDataV8),
      (∀ v, f (mapComponents (fun n x => (precision 9 u n).round F x) v) = f v) →
      SameNames ssbhText (numbered (stored F 9 u l) us f) (numbered l us f) :=
    fun u us l f hf => numbered_names ssbhText F 9 u l us f (fun h => absurd h.1 (by decide))
      (fun n i => by rw [if_neg (by decide)]; exact ssbhText_cutNul n) hf
  have hv := fun u hp hc => vectors8 h 9 (by decide) u hp hc
  have hc : ∀ n n', ssbhText n = ssbhText n' → createAttributeV9 n = createAttributeV9 n' := by
    intro n n' e
    funext i b u t k
    simp only [createAttributeV9, calculateAttributeName, e]
  refine createAttributesFromData_names ssbhText createAttributeV9 hc _ _ _ _ ?_ ?_
  · refine .append (.append (.append ?_ ?_) ?_) ?_
    · exact hn _ _ _ _ (fun v => by rw [mapComponents_position])
    · exact hn _ _ _ _ (hv _ (by decide) (by decide))
    · exact hn _ _ _ _ (hv _ (by decide) (by decide))
    · exact hn _ _ _ _ (hv _ (by decide) (by decide))
  · refine .append ?_ ?_
    · exact hn _ _ _ _ (hv _ (by decide) (by decide))
    · exact hn _ _ _ _ (colors8 h 9 (by decide))

theorem createAttributesV10_stored {F : FloatConv} (h : Stable F) (o : MeshObjectData) :
    createAttributesV10 F (storedObject F 10 o) = createAttributesV10 F o := by
  have hn : ∀ (u : AttributeUsage) (us : Mesh.AttributeUsageV9) (l : List AttributeData) (f : VectorData → VectorDataV10),
      (∀ v, f (mapComponents (fun n x => (precision 10 u n).round F x) v) = f v) →
      SameNames ssbhText (numbered (stored F 10 u l) us f) (numbered l us f) :=
    fun u us l f hf => numbered_names ssbhText F 10 u l us f (fun h => absurd h.1 (by decide))
      (fun n i => by rw [if_neg (by decide)]; exact ssbhText_cutNul n) hf
  have hc : ∀ n n', ssbhText n = ssbhText n' → createAttributeV10 n = createAttributeV10 n' := by
    intro n n' e
    funext i b u t k
    simp only [createAttributeV10, calculateAttributeName, e]
  refine createAttributesFromData_names ssbhText createAttributeV10 hc _ _ _ _ ?_ ?_
  · refine .append (.append (.append ?_ ?_) ?_) ?_
    · exact hn _ _ _ _ (fun v => by rw [mapComponents_position])
    · exact hn _ _ _ _ (vectors10 h _ (by decide) (by decide))
    · exact hn _ _ _ _ (vectors10 h _ (by decide) (by decide))
    · exact hn _ _ _ _ (vectors10 h _ (by decide) (by decide))
  · refine .append ?_ ?_
    · exact hn _ _ _ _ (vectors10 h _ (by decide) (by decide))
    · exact hn _ _ _ _ (colors10 h)

/-- Every object with binormals has some other attribute. Version 1.8 has no binormals, so without this the number of
vertices is lost. -/
def OtherAttributes (d : MeshData) : Prop :=
  d.minor_version = 8 → ∀ o ∈ d.objects, o.binormals ≠ [] → ∃ u ∈ usages, u ≠ .Binormal ∧ attributesOf o u ≠ []

theorem lengths_stored (F : FloatConv) (minor : UInt16) (u : AttributeUsage) (l : List AttributeData)
    (hb : ¬ (minor = 8 ∧ u = .Binormal)) :
    ((stored F minor u l).map fun a => a.data.len) = l.map fun a => a.data.len := by
  simp only [stored, hb, if_false, List.map_map]
  apply List.ext_getElem?
  intro i
  simp only [List.getElem?_map, List.getElem?_zipIdx, Option.map_map, Nat.zero_add]
  cases l[i]? with
  | none => rfl
  | some a => simp only [Option.map_some, Function.comp, mapComponents_len]

theorem vertexCount_stored (F : FloatConv) (minor : UInt16) (o : MeshObjectData) (n : Nat) (h : o.vertexCount = .ok n)
    (ho : minor = 8 → o.binormals ≠ [] → ∃ u ∈ usages, u ≠ .Binormal ∧ attributesOf o u ≠ []) :
    (storedObject F minor o).vertexCount = .ok n := by
  by_cases hb : minor = 8 ∧ o.binormals ≠ []
  · obtain ⟨rfl, hb⟩ := hb
    obtain ⟨u, -, hu, hne⟩ := ho rfl hb
    rw [vertexCount_ok] at h ⊢
    have he : (storedObject F 8 o).lengths = (o.positions.map fun a => a.data.len) ++ (o.normals.map fun a => a.data.len)
        ++ [] ++ (o.tangents.map fun a => a.data.len)
        ++ (o.texture_coordinates.map fun a => a.data.len) ++ (o.color_sets.map fun a => a.data.len) := by
      simp only [MeshObjectData.lengths, storedObject]
      rw [show stored F 8 .Binormal o.binormals = [] by simp [stored], lengths_stored _ _ _ _ (by simp),
        lengths_stored _ _ _ _ (by simp), lengths_stored _ _ _ _ (by simp), lengths_stored _ _ _ _ (by simp),
        lengths_stored _ _ _ _ (by simp), List.map_nil]
    rw [he]
    simp only [MeshObjectData.lengths, List.append_nil, List.mem_append] at h ⊢
    refine ⟨fun l hl => h.1 l ?_, ?_⟩
    · rcases hl with (((hl | hl) | hl) | hl) | hl <;> simp [hl]
    · intro hnil
      simp only [List.append_eq_nil_iff, List.map_eq_nil_iff] at hnil
      obtain ⟨⟨⟨⟨h1, h2⟩, h3⟩, h4⟩, h5⟩ := hnil
      cases u <;> first | exact absurd rfl hu | contradiction
  · rw [← h]
    have hbin : ((stored F minor .Binormal o.binormals).map fun a => a.data.len) = o.binormals.map fun a => a.data.len := by
      by_cases hm : minor = 8
      · have : o.binormals = [] := by
          by_contra hne
          exact hb ⟨hm, hne⟩
        rw [this]
        simp [stored]
      · exact lengths_stored F minor _ _ (fun h => hm h.1)
    simp only [MeshObjectData.vertexCount, storedObject]
    rw [hbin, lengths_stored, lengths_stored, lengths_stored, lengths_stored, lengths_stored] <;> simp

theorem head_stored (F : FloatConv) (minor : UInt16) (o : MeshObjectData) :
    ∃ n : String → String, (stored F minor .Position o.positions).head? =
      o.positions.head?.map fun a => { a with name := n a.name } := by
  simp only [stored, mapComponents_position]
  refine ⟨fun s => if minor = 8 then numberedName .Position 0 else cutNul s, ?_⟩
  cases o.positions <;> simp [List.zipIdx_cons]

/-- The points which bounds are made of. -/
def firstPoints (o : MeshObjectData) : List (Vector F32 3) :=
  match o.positions.head? with
  | some a => a.data.toVec3
  | none => []

theorem firstPoints_stored (F : FloatConv) (minor : UInt16) (o : MeshObjectData) :
    firstPoints (storedObject F minor o) = firstPoints o := by
  obtain ⟨n, hn⟩ := head_stored F minor o
  simp only [firstPoints, storedObject, hn]
  cases o.positions.head? <;> rfl

theorem toMesh_eq (F : FloatConv) (bounds : List (Vector F32 3) → Mesh.BoundingInfo) (data : MeshData) : toMesh F bounds data =
  match validateSubindices data.objects with
  | .error e => .error e
  | .ok () =>
    if data.major_version = 1 ∧ data.minor_version = 10 then
      match createMeshObjects bounds (createAttributesV10 F) data.objects with
      | .error e => .error e
      | .ok v => (createMeshInner (bounds (data.objects.flatMap firstPoints)) v data).map .V10
    else if data.major_version = 1 ∧ data.minor_version = 8 then
      match createMeshObjects bounds (createAttributesV8 F) data.objects with
      | .error e => .error e
      | .ok v => (createMeshInner (bounds (data.objects.flatMap firstPoints)) v data).map .V8
    else if data.major_version = 1 ∧ data.minor_version = 9 then
      match createMeshObjects bounds (createAttributesV9 F) data.objects with
      | .error e => .error e
      | .ok v => (createMeshInner (bounds (data.objects.flatMap firstPoints)) v data).map .V9
    else .error (.unsupportedVersion data.major_version data.minor_version) := rfl

theorem createMeshObject_stored {A : Type} {F : FloatConv} {bounds : List (Vector F32 3) → Mesh.BoundingInfo}
    {ca : MeshObjectData → MeshAttributes A} {minor : UInt16} {o : MeshObjectData} {n : Nat} (s : BufferState)
    (ha : ca (storedObject F minor o) = ca o) (h : o.vertexCount = .ok n)
    (h' : (storedObject F minor o).vertexCount = .ok n) :
    createMeshObject bounds ca (storedObject F minor o) s = createMeshObject bounds ca o s := by
  obtain ⟨nm, hn⟩ := head_stored F minor o
  simp only [createMeshObject, ha, h, h']
  simp only [storedObject, ssbhText_cutNul, List.isEmpty_map, hn]
  cases o.positions.head? <;> rfl

theorem createMeshObjectsFrom_stored {A : Type} {F : FloatConv} {bounds : List (Vector F32 3) → Mesh.BoundingInfo}
    {ca : MeshObjectData → MeshAttributes A} {minor : UInt16} (ha : ∀ o, ca (storedObject F minor o) = ca o) :
    ∀ (l : List MeshObjectData) (s : BufferState), (∀ o ∈ l, ∃ n, o.vertexCount = .ok n ∧
      (storedObject F minor o).vertexCount = .ok n) →
    createMeshObjectsFrom bounds ca (l.map (storedObject F minor)) s = createMeshObjectsFrom bounds ca l s
  | [], _, _ => rfl
  | o :: l, s, h => by
    obtain ⟨n, h1, h2⟩ := h o (.head _)
    simp only [List.map_cons, createMeshObjectsFrom, createMeshObject_stored s (ha o) h1 h2]
    cases createMeshObject bounds ca o s with
    | error e => rfl
    | ok r =>
      obtain ⟨mo, s'⟩ := r
      simp only
      rw [createMeshObjectsFrom_stored ha l s' fun o ho => h o (.tail _ ho)]

theorem collect_map_eq (f : β → Except ε γ) (g : α → β) : ∀ l : List α, collect f (l.map g) = collect (fun x => f (g x)) l
  | [] => rfl
  | x :: xs => by simp only [List.map_cons, collect, collect_map_eq f g xs]

theorem createRiggingGroup_stored {Wt : Type} [Weight Wt] (F : FloatConv) (minor : UInt16) (o : MeshObjectData) :
    createRiggingGroup (Wt := Wt) (storedObject F minor o) = createRiggingGroup o := by
  simp only [createRiggingGroup, storedObject, collect_map_eq, ssbhText_cutNul, calculateMaxInfluences, List.foldl_map]

theorem createMeshInner_stored {A Wt : Type} [Weight Wt] (F : FloatConv) (minor : UInt16) (b : Mesh.BoundingInfo)
    (v : MeshVertexData A) (d : MeshData) :
    createMeshInner (Wt := Wt) b v { d with objects := d.objects.map (storedObject F minor) } = createMeshInner b v d := by
  simp only [createMeshInner, createRiggingBuffers, collect_map_eq, createRiggingGroup_stored]

theorem toMesh_stored {F : FloatConv} (hF : Stable F) (bounds : List (Vector F32 3) → Mesh.BoundingInfo) (d : MeshData)
    (m : Mesh) (h : toMesh F bounds d = .ok m)
    (hn : d.objects.Pairwise fun a b => ¬ (cutNul a.name = cutNul b.name ∧ a.subindex = b.subindex))
    (ho : OtherAttributes d) :
    toMesh F bounds { d with objects := d.objects.map (storedObject F d.minor_version) } = .ok m := by
  obtain ⟨hp, hc, -⟩ := toMesh_isOk.mp ⟨m, h⟩
  have hv : validateSubindices (d.objects.map (storedObject F d.minor_version)) = .ok () := by
    rw [validate_ok, List.pairwise_map]
    exact hn
  have hv' := validate_ok.mpr hp
  have hpos : (d.objects.map (storedObject F d.minor_version)).flatMap firstPoints = d.objects.flatMap firstPoints := by
    rw [List.flatMap_map]
    simp only [firstPoints_stored]
  have hcount : ∀ o ∈ d.objects, ∃ n, o.vertexCount = .ok n ∧
      (storedObject F d.minor_version o).vertexCount = .ok n := by
    intro o hmem
    obtain ⟨-, n, hn, -⟩ := hc o hmem
    exact ⟨n, hn, vertexCount_stored F _ o n hn fun h8 => ho h8 o hmem⟩
  rw [← h]
  simp only [toMesh_eq, hv, hv', hpos, createMeshInner_stored]
  split
  · rename_i hver
    rw [hver.2] at hcount ⊢
    simp only [createMeshObjects, createMeshObjectsFrom_stored (createAttributesV10_stored hF) _ _ hcount]
  split
  · rename_i hver
    rw [hver.2] at hcount ⊢
    simp only [createMeshObjects, createMeshObjectsFrom_stored (createAttributesV8_stored hF) _ _ hcount]
  split
  · rename_i hver
    rw [hver.2] at hcount ⊢
    simp only [createMeshObjects, createMeshObjectsFrom_stored (createAttributesV9_stored hF) _ _ hcount]
  · rfl

/-- For any conversions of components which are stable. -/
theorem mesh_again (F : FloatConv) (hF : Stable F) (bounds : List (Vector F32 3) → Mesh.BoundingInfo) (d d' : MeshData)
    (bytes : Bytes) (h : d.write F bounds = .ok bytes) (hl : bytes.length < 2 ^ 32)
    (hn : d.objects.Pairwise fun a b => ¬ (cutNul a.name = cutNul b.name ∧ a.subindex = b.subindex))
    (ho : OtherAttributes d) (hr : MeshData.read F bytes = .ok d') : d'.write F bounds = .ok bytes := by
  rw [C45_mesh F bounds d bytes h hl hn] at hr
  cases hr
  simp only [MeshData.write] at h ⊢
  split at h
  · cases h
  rename_i m hm
  rw [toMesh_stored hF bounds d m hm hn ho]
  exact h

/-! ## Animations -/

theorem write_compensate (F : FloatOps) (values : TrackValues) (a b : Bool)
    (h : a = match values with
      | .transform (_ :: _) => b
      | _ => false) :
    values.write F (inferOptimalCompressionType values) a = values.write F (inferOptimalCompressionType values) b := by
  cases values with
  | transform vs =>
    cases vs with
    | nil => rfl
    | cons x xs => rw [h]
  | _ => rfl

theorem createTrack_kept (F : FloatOps) (buffer : Bytes) {t t' : AnimData.TrackData} (h : Kept F t t') (hv : t'.values = t.values) :
    AnimData.createTrack F buffer t' = AnimData.createTrack F buffer t := by
  simp only [AnimData.createTrack, hv, h.name, h.flags, ssbhText_cutNul,
    write_compensate F t.values t'.compensate_scale t.compensate_scale h.compensate]

theorem mapState_map {σ α ε β γ : Type} (f : σ → α → Except ε (β × σ)) (f' : σ → γ → Except ε (β × σ)) (g : α → γ) :
    ∀ (l : List α) (s : σ), (∀ x ∈ l, ∀ s, f' s (g x) = f s x) → AnimData.mapState f' s (l.map g) = AnimData.mapState f s l
  | [], _, _ => rfl
  | x :: xs, s, h => by
    simp only [List.map_cons, AnimData.mapState, h x (.head _) s]
    cases f s x with
    | error e => rfl
    | ok r =>
      obtain ⟨y, s1⟩ := r
      simp only
      rw [mapState_map f f' g xs s1 fun x hx => h x (.tail _ hx)]

theorem create_kept (F : FloatOps) (d : AnimData) (f : AnimData.TrackData → AnimData.TrackData) (hf : ∀ t, Kept F t (f t))
    (hv : ∀ t ∈ dataTracks d.groups, (f t).values = t.values) :
    AnimData.create F { d with groups := mapTracks f d.groups } = AnimData.create F d := by
  have hg : AnimData.mapState (AnimData.createGroup F) [] (mapTracks f d.groups) =
      AnimData.mapState (AnimData.createGroup F) [] d.groups := by
    refine mapState_map _ _ _ _ _ fun g hg s => ?_
    simp only [AnimData.createGroup]
    rw [mapState_map (AnimData.createNode F) (AnimData.createNode F)]
    intro n hn s
    simp only [AnimData.createNode, ssbhText_cutNul]
    rw [mapState_map (AnimData.createTrack F) (AnimData.createTrack F)]
    intro t ht s
    exact createTrack_kept F s (hf t) (hv t (List.mem_flatMap.mpr ⟨g, hg, List.mem_flatMap.mpr ⟨n, hn, ht⟩⟩))
  simp only [AnimData.create, hg]

theorem dataTracks_mapTracks (f : AnimData.TrackData → AnimData.TrackData) (groups : List AnimData.GroupData) :
    dataTracks (mapTracks f groups) = (dataTracks groups).map f := by
  simp only [dataTracks, mapTracks, List.flatMap_map, List.map_flatMap]

/-- Animations all of whose values are still the same after opening the file. -/
theorem C81_anim (F : FloatOps) (d d' : AnimData) (bytes : Bytes) (h : d.write F = .ok bytes)
    (hl : ∀ t ∈ dataTracks d.groups, t.values.len < 2 ^ 32) (hb : bytes.length < 2 ^ 32)
    (hr : AnimData.read F bytes = some (.ok d'))
    (hv : (dataTracks d'.groups).map (·.values) = (dataTracks d.groups).map (·.values)) :
    d'.write F = .ok bytes := by
  obtain ⟨f, hf, ho⟩ := C45_anim_file F d bytes h hl hb
  rw [ho] at hr
  cases hr
  simp only [dataTracks_mapTracks, List.map_map] at hv
  rw [← h]
  simp only [AnimData.write, create_kept F d f hf fun t ht => List.map_inj_left.mp hv t ht]

/-! ## With the float operations of the code -/

theorem C81_mesh (bounds : List (Vector F32 3) → Mesh.BoundingInfo) (d d' : MeshData) (bytes : Bytes)
    (h : d.write Ieee.conv bounds = .ok bytes) (hl : bytes.length < 2 ^ 32)
    (hn : d.objects.Pairwise fun a b => ¬ (cutNul a.name = cutNul b.name ∧ a.subindex = b.subindex))
    (ho : OtherAttributes d) (hr : MeshData.read Ieee.conv bytes = .ok d') : d'.write Ieee.conv bounds = .ok bytes :=
  mesh_again Ieee.conv Ieee.stable bounds d d' bytes h hl hn ho hr

/-- Compression changes the values of this animation, so the file changes too. -/
theorem C81_anim_changes : ∃ (d d' : AnimData) (bytes bytes' : Bytes), d.write Ieee.ops = .ok bytes ∧
    AnimData.read Ieee.ops bytes = some (.ok d') ∧ d'.write Ieee.ops = .ok bytes' ∧ bytes' ≠ bytes := by
  obtain ⟨d0, d1, d2, -, -, h1, h2, -, -, t1, t2, -, -⟩ := C53_drift
  have key : ∀ {a b : AnimData}, saveAndOpen a = some b →
      ∃ bytes, a.write Ieee.ops = .ok bytes ∧ AnimData.read Ieee.ops bytes = some (.ok b) := by
    intro a b hab
    unfold saveAndOpen at hab
    split at hab
    · cases hab
    · rename_i bytes hw
      refine ⟨bytes, hw, ?_⟩
      split at hab
      · rename_i d' hr
        cases hab
        exact hr
      · cases hab
  obtain ⟨b, hw, hr⟩ := key h1
  obtain ⟨b', hw', hr'⟩ := key h2
  refine ⟨d0, d1, b, b', hw, hr, hw', ?_⟩
  rintro rfl
  rw [hr] at hr'
  cases hr'
  rw [t1] at t2
  revert t2
  decide

/-- A bone with the parent 65536 is its own parent in the file, which can be opened but not saved. -/
theorem C81_skel_large_parent : ∃ (d d' : SkelData) (bytes : Bytes), d.write countOps = .ok bytes ∧
    SkelData.read bytes = .ok d' ∧ ∀ bytes', d'.write countOps ≠ .ok bytes' := by
  obtain ⟨bytes, h⟩ : ∃ b, (⟨1, 0, [⟨"a", m0 1, some 65536, .Disabled⟩]⟩ : SkelData).write countOps = .ok b :=
    isOk_iff.mp (by decide +kernel)
  refine ⟨_, _, bytes, h, C45_skel _ _ _ h, fun bytes' h' => ?_⟩
  have := isOk_iff.mpr ⟨bytes', h'⟩
  revert this
  decide +kernel

/-- Whether a mesh which is opened and saved again gives another file. -/
def meshChanges (d : MeshData) : Bool :=
  match d.write Ieee.conv exampleBounds with
  | .error _ => false
  | .ok bytes =>
    match MeshData.read Ieee.conv bytes with
    | .error _ => false
    | .ok d' =>
      match d'.write Ieee.conv exampleBounds with
      | .error _ => false
      | .ok bytes' => bytes' ≠ bytes

/-- An object of version 1.8 without faces and with only binormals has no vertices in the second file. -/
theorem C81_mesh_binormals_only : ∃ (d d' : MeshData) (bytes bytes' : Bytes), d.write Ieee.conv exampleBounds = .ok bytes ∧
    MeshData.read Ieee.conv bytes = .ok d' ∧ d'.write Ieee.conv exampleBounds = .ok bytes' ∧ bytes' ≠ bytes := by
  have h : meshChanges ⟨1, 8, [{ binormalsOnly with vertex_indices := [] }]⟩ = true := by decide +kernel
  unfold meshChanges at h
  split at h
  · cases h
  rename_i bytes h1
  split at h
  · cases h
  rename_i d' h2
  split at h
  · cases h
  rename_i bytes' h3
  exact ⟨_, d', bytes, bytes', h1, h2, h3, of_decide_eq_true h⟩

/-! ## The conditions -/

example : OtherAttributes (exampleMesh 8 "b" "a") := by
  intro _ o ho _
  simp only [exampleMesh, List.mem_cons, List.not_mem_nil, or_false] at ho
  rcases ho with rfl | rfl
  · exact ⟨.Position, by decide, by decide, by decide⟩
  · exact ⟨.Position, by decide, by decide, by decide⟩

example : ∃ bytes, (exampleMesh 8 "b" "a").write Ieee.conv exampleBounds = .ok bytes := isOk_iff.mp (by decide +kernel)
example : ∃ bytes, (exampleMesh 9 "b" "a").write Ieee.conv exampleBounds = .ok bytes := isOk_iff.mp (by decide +kernel)

/-- Names with NUL, rounded components: not the same data, but the same file. -/
example : ∃ d d' bytes, d.write = .ok bytes ∧ ModlData.read bytes = .ok d' ∧ d' ≠ d ∧ d'.write = .ok bytes := by
  obtain ⟨bytes, h⟩ : ∃ b, ({ sampleModl with model_name := "a\x00b" }).write = .ok b := isOk_iff.mp (by decide +kernel)
  exact ⟨_, _, bytes, h, C45_modl _ _ h, by decide +kernel, C81_modl _ _ _ h (C45_modl _ _ h)⟩

example : ∃ d', saveAndOpen mixedAnim = some d' ∧
    (dataTracks d'.groups).map (·.values) = (dataTracks mixedAnim.groups).map (·.values) :=
  ⟨mixedAnim, by decide +kernel, rfl⟩

end Props
end Verif
