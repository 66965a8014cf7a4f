import Verif.Props.SameFile
import Verif.Props.MeshLayout
/-!
C82: opening a mesh file of any origin and saving it.
-/

namespace Verif.Props
open Verif MeshData

/-- The formats that saving does not change: three components, and two components before version 1.10, are saved as floats;
two components, and four components which are not colors, as half floats; colors as bytes. Positions are always floats. -/
def KeepsFormat (minor : UInt16) (usage : AttributeUsage) : Component × Nat → Prop
  | (c, n) =>
    usage = .Position ∨ n = 3 ∨ (n = 2 ∧ minor ≠ 10) ∨ (n = 2 ∧ c = .half) ∨
      (n = 4 ∧ usage ≠ .ColorSet ∧ c = .half) ∨ (n = 4 ∧ usage = .ColorSet ∧ c = .byte)

def KeepsObject (minor : UInt16) (attributes : List Described) : Prop :=
  ∀ a ∈ attributes, ∀ usage format, a.kind = some usage → a.format = some format → KeepsFormat minor usage format

/-- The attributes of each usage are numbered from 0. -/
def NumberedV8 (o : Mesh.MeshObject Mesh.AttributeV8) : Prop :=
  ∀ usage (i : Nat) a, (o.attributes.filter fun a => a.usage = usage)[i]? = some a → a.subindex.toNat = i

/-- All attributes of the file have formats which are used for saving. -/
def KeepsMesh : Mesh → Prop
  | .V8 m => ∀ o ∈ m.objects, KeepsObject 8 (o.attributes.map describeV8) ∧ NumberedV8 o
  | .V9 m => ∀ o ∈ m.objects, KeepsObject 9 (o.attributes.map describeV9)
  | .V10 m => ∀ o ∈ m.objects, KeepsObject 10 (o.attributes.map describeV10)

/-- Components which are read from half floats and bytes. -/
structure Exact (F : FloatConv) : Prop where
  half : ∀ h, F.ofHalf (F.toHalf (F.ofHalf h)) = F.ofHalf h
  byte : ∀ h, F.ofByte (F.toByte (F.ofByte h)) = F.ofByte h

theorem map_vector_id {f : F32 → F32} {v : Vector F32 n} (h : ∀ x ∈ v.toList, f x = x) : v.map f = v := by
  apply Vector.ext
  intro i hi
  rw [Vector.getElem_map]
  exact h _ (by rw [Vector.mem_toList_iff]; exact Vector.getElem_mem hi)

theorem map_vectors_id {f : F32 → F32} {l : List (Vector F32 n)}
    (h : ∀ (i j : Nat) x, (l[i]?.bind (·.toList[j]?)) = some x → f x = x) : l.map (·.map f) = l := by
  refine (List.map_congr_left fun v hv => ?_).trans (List.map_id l)
  obtain ⟨i, hi⟩ := List.getElem?_of_mem hv
  refine map_vector_id fun x hx => ?_
  obtain ⟨j, hj⟩ := List.getElem?_of_mem hx
  exact h i j x (by rw [hi]; exact hj)

theorem round_component {F : FloatConv} (hF : Exact F) {b : Bytes} {p : Nat} {x : F32} {minor : UInt16} {u : AttributeUsage}
    {c : Component} {n : Nat} (hn : n = 2 ∨ n = 3 ∨ n = 4) (hk : KeepsFormat minor u (c, n)) (hc : ComponentAt F b p x c) :
    (precision minor u n).round F x = x := by
  have hhalf : c = .half → F.ofHalf (F.toHalf x) = x := by
    rintro rfl
    obtain ⟨h, -, rfl⟩ := hc
    exact hF.half h
  have hbyte : c = .byte → F.ofByte (F.toByte x) = x := by
    rintro rfl
    obtain ⟨h, -, rfl⟩ := hc
    exact hF.byte h
  rcases hk with rfl | rfl | ⟨rfl, hm⟩ | ⟨rfl, e⟩ | ⟨rfl, hu, e⟩ | ⟨rfl, rfl, e⟩
  · rcases hn with rfl | rfl | rfl <;> rfl
  · cases u <;> rfl
  · cases u <;> simp [precision, hm, Precision.round]
  · cases u <;> simp only [precision] <;> (try split) <;> first | rfl | exact hhalf e
  · cases u <;> first | exact absurd rfl hu | rfl | exact hhalf e
  · exact hbyte e

theorem mapComponents_kept {F : FloatConv} (hF : Exact F) {buffer : Bytes} {start stride count : Nat} {minor : UInt16}
    {u : AttributeUsage} {c : Component} {n : Nat} {d : VectorData} (hk : KeepsFormat minor u (c, n))
    (hs : ShowsVectors F buffer start stride count c n d) :
    mapComponents (fun n x => (precision minor u n).round F x) d = d := by
  obtain ⟨-, hn, -, hc⟩ := hs
  cases d with
  | Vector2 v =>
    simp only [vectorSize] at hn
    subst hn
    exact congrArg VectorData.Vector2 (map_vectors_id fun i j x hx => round_component hF (.inl rfl) hk (hc i j x hx))
  | Vector3 v =>
    simp only [vectorSize] at hn
    subst hn
    exact congrArg VectorData.Vector3 (map_vectors_id fun i j x hx => round_component hF (.inr (.inl rfl)) hk (hc i j x hx))
  | Vector4 v =>
    simp only [vectorSize] at hn
    subst hn
    exact congrArg VectorData.Vector4 (map_vectors_id fun i j x hx => round_component hF (.inr (.inr rfl)) hk (hc i j x hx))

theorem nulFree_of_bytes {t : String} {c : CStr} (h : textBytes t = c.bytes) : cutNul t = t :=
  cutNul_of_not_mem fun hm => c.noNull (h ▸ nul_mem_textBytes hm)

theorem isText_cut {t : String} {s : Option CStr} (h : IsText t s) : cutNul t = t := by
  rcases h with ⟨c, -, h⟩ | ⟨rfl, -⟩
  · exact nulFree_of_bytes h
  · rfl

theorem forall₂_get {R : α → β → Prop} {l : List α} {r : List β} (h : List.Forall₂ R l r) {i : Nat} {a : α}
    (ha : l[i]? = some a) : ∃ b, r[i]? = some b ∧ R a b := by
  induction h generalizing i with
  | nil => cases ha
  | cons h1 _ ih =>
    cases i with
    | zero => cases ha; exact ⟨_, rfl, h1⟩
    | succ i => exact ih ha

theorem stored_kept {F : FloatConv} (hF : Exact F) {buffers : List Bytes} {o : Mesh.MeshObject A} {minor : UInt16}
    {u : AttributeUsage} {l : List AttributeData} {r : List Described} (hk : KeepsObject minor r)
    (hu : ∀ a ∈ r, a.kind = some u) (hb : ¬ (minor = 8 ∧ u = .Binormal))
    (hname : ∀ (i : Nat) a t, r[i]? = some a → a.IsName t → (if minor = 8 then numberedName u i else cutNul t) = t)
    (h : List.Forall₂ (ShowsAttribute F buffers o) l r) : stored F minor u l = l := by
  simp only [stored, hb, if_false]
  apply List.ext_getElem?
  intro i
  simp only [List.getElem?_map, List.getElem?_zipIdx, Option.map_map, Nat.zero_add]
  cases hl : l[i]? with
  | none => rfl
  | some a =>
    obtain ⟨v, hv, hs⟩ := forall₂_get h hl
    obtain ⟨hn, buffer, start, stride, c, n, -, -, hf, hs⟩ := hs
    have hmem := List.mem_of_getElem? hv
    simp only [Option.map_some, Function.comp, Option.some.injEq]
    have h1 := hname i v _ hv hn
    have h2 := mapComponents_kept hF (hk v hmem u (c, n) (hu v hmem) hf) hs
    cases a
    simp only [AttributeData.mk.injEq]
    exact ⟨h1, h2⟩

theorem object_kept {F : FloatConv} (hF : Exact F) {describe : A → Described} {ShowsWeights : List VertexWeight → Wt → Prop}
    {m : Mesh.MeshInner A Wt} {d : MeshObjectData} {o : Mesh.MeshObject A} {minor : UInt16}
    (h : ShowsObject F describe ShowsWeights m d o) (hk : KeepsObject minor (o.attributes.map describe))
    (hb : minor = 8 → ∀ a ∈ o.attributes, (describe a).kind ≠ some .Binormal)
    (hname : ∀ u (i : Nat) a t, ((o.attributes.map describe).filter fun a => a.kind = some u)[i]? = some a → a.IsName t →
      (if minor = 8 then numberedName u i else cutNul t) = t) : storedObject F minor d = d := by
  have hs : ∀ u, stored F minor u (attributesOf d u) = attributesOf d u := by
    intro u
    by_cases hc : minor = 8 ∧ u = .Binormal
    · obtain ⟨h8, rfl⟩ := hc
      have h1 : ((o.attributes.map describe).filter fun a => a.kind = some AttributeUsage.Binormal) = [] := by
        rw [List.filter_eq_nil_iff]
        intro v hv
        obtain ⟨a, ha, rfl⟩ := List.mem_map.mp hv
        simpa using hb h8 a ha
      have h2 := h.attributes .Binormal
      rw [h1, List.forall₂_nil_right_iff] at h2
      rw [h2]
      simp [stored]
    · exact stored_kept hF (fun a ha => hk a (List.mem_filter.mp ha).1)
        (fun a ha => by simpa using (List.mem_filter.mp ha).2) hc (hname u) (h.attributes u)
  have hi : d.bone_influences.map (fun i => { i with bone_name := cutNul i.bone_name }) = d.bone_influences := by
    refine (List.map_congr_left fun i hi => ?_).trans (List.map_id _)
    obtain ⟨own, -, -, hf⟩ := h.influences
    obtain ⟨k, hk⟩ := List.getElem?_of_mem hi
    obtain ⟨b, -, ⟨c, -, hc⟩, -⟩ := forall₂_get hf hk
    simp only [nulFree_of_bytes hc, id]
  have e1 := hs .Position
  have e2 := hs .Normal
  have e3 := hs .Binormal
  have e4 := hs .Tangent
  have e5 := hs .TextureCoordinate
  have e6 := hs .ColorSet
  simp only [attributesOf] at e1 e2 e3 e4 e5 e6
  simp only [storedObject, e1, e2, e3, e4, e5, e6, hi, isText_cut h.name, isText_cut h.parent_bone_name]

theorem firstName_cut {t : String} {names : List SsbhString} (h : FirstName t names) : cutNul t = t := by
  rcases h with ⟨-, rfl⟩ | ⟨s, rest, -, h⟩
  · rfl
  · exact isText_cut h

theorem kindV8_usage {u v : Mesh.AttributeUsageV8} {k : AttributeUsage} (hu : kindV8 u.tag = some k)
    (hv : kindV8 v.tag = some k) : u = v := by
  obtain ⟨u, hu'⟩ := u
  obtain ⟨v, hv'⟩ := v
  simp only [List.mem_cons, List.not_mem_nil, or_false] at hu' hv'
  rcases hu' with rfl | rfl | rfl | rfl | rfl <;> cases hu <;>
    rcases hv' with rfl | rfl | rfl | rfl | rfl <;> first | rfl | cases hv

theorem namesV8 {o : Mesh.MeshObject Mesh.AttributeV8} (h : NumberedV8 o) (u : AttributeUsage) (i : Nat) (a : Described)
    (t : String) (ha : ((o.attributes.map describeV8).filter fun a => a.kind = some u)[i]? = some a) (ht : a.IsName t) :
    numberedName u i = t := by
  rw [List.filter_map, List.getElem?_map, Option.map_eq_some_iff] at ha
  obtain ⟨x, hx, rfl⟩ := ha
  have hk : kindV8 x.usage.tag = some u := by
    simpa [describeV8] using (List.mem_filter.mp (List.mem_of_getElem? hx)).2
  have hf : (o.attributes.filter fun a => a.usage = x.usage) =
      o.attributes.filter ((fun a : Described => decide (a.kind = some u)) ∘ describeV8) := by
    apply List.filter_congr
    intro y _
    show decide _ = decide _
    rw [decide_eq_decide]
    exact ⟨fun e => by rw [describeV8, e]; exact hk, fun e => kindV8_usage e hk⟩
  have hi := h x.usage i x (by rw [hf]; exact hx)
  obtain ⟨start, hm, rfl⟩ := ht
  rw [hi]
  simp only [List.mem_cons, List.not_mem_nil, or_false, Prod.mk.injEq] at hm
  rcases hm with ⟨e, rfl⟩ | ⟨e, rfl⟩ | ⟨e, rfl⟩ | ⟨e, rfl⟩ | ⟨e, rfl⟩ <;> rw [e] at hk <;> cases hk <;> rfl

theorem no_binormals_V8 (a : Mesh.AttributeV8) : (describeV8 a).kind ≠ some .Binormal := by
  show kindV8 a.usage.tag ≠ _
  unfold kindV8
  split <;> simp

theorem map_self_of {f : α → α} {l : List α} (h : ∀ x ∈ l, f x = x) : l.map f = l :=
  (List.map_congr_left h).trans (List.map_id l)

theorem forall₂_has {R : α → β → Prop} {l : List α} {r : List β} (h : List.Forall₂ R l r) {a : α} (ha : a ∈ l) :
    ∃ b ∈ r, R a b := by
  obtain ⟨i, hi⟩ := List.getElem?_of_mem ha
  obtain ⟨b, hb, hr⟩ := forall₂_get h hi
  exact ⟨b, List.mem_of_getElem? hb, hr⟩

/-- Data read from a file with the formats used for saving is the same after storing it. -/
theorem mesh_kept {F : FloatConv} (hF : Exact F) {m : Mesh} {d : MeshData} (h : ShowsMesh F d m) (hk : KeepsMesh m) :
    ∀ o ∈ d.objects, storedObject F d.minor_version o = o := by
  intro o ho
  cases m with
  | V8 m =>
    obtain ⟨⟨-, e⟩, h⟩ := h
    obtain ⟨r, hr, hs⟩ := forall₂_has h ho
    rw [e]
    exact object_kept hF hs (hk r hr).1 (fun _ a _ => no_binormals_V8 a)
      (fun u i a t ha ht => by rw [if_pos rfl]; exact namesV8 (hk r hr).2 u i a t ha ht)
  | V9 m =>
    obtain ⟨⟨-, e⟩, h⟩ := h
    obtain ⟨r, hr, hs⟩ := forall₂_has h ho
    rw [e]
    refine object_kept hF hs (hk r hr) (fun h => by cases h) (fun u i a t ha ht => ?_)
    rw [if_neg (by decide)]
    obtain ⟨x, -, rfl⟩ := List.mem_map.mp (List.mem_filter.mp (List.mem_of_getElem? ha)).1
    exact firstName_cut ht
  | V10 m =>
    obtain ⟨⟨-, e⟩, h⟩ := h
    obtain ⟨r, hr, hs⟩ := forall₂_has h ho
    rw [e]
    refine object_kept hF hs (hk r hr) (fun h => by cases h) (fun u i a t ha ht => ?_)
    rw [if_neg (by decide)]
    obtain ⟨x, -, rfl⟩ := List.mem_map.mp (List.mem_filter.mp (List.mem_of_getElem? ha)).1
    exact firstName_cut ht

theorem names_kept {F : FloatConv} {m : Mesh} {d : MeshData} (h : ShowsMesh F d m) : ∀ o ∈ d.objects, cutNul o.name = o.name := by
  intro o ho
  cases m <;>
  · obtain ⟨-, h⟩ := h
    obtain ⟨r, -, hs⟩ := forall₂_has h ho
    exact isText_cut hs.name

open Ieee in
theorem half_signal : ∀ k < 1024, ∀ s : Bool,
    ofHalf (toHalf (ofHalf (toBits16 ⟨s, half.inf + k⟩))) = ofHalf (toBits16 ⟨s, half.inf + k⟩) := by
  decide +kernel

open Ieee in
theorem toBits16_ofBits16 (h : UInt16) : toBits16 (ofBits16 h) = h := by
  have hx := h.toNat_lt
  apply UInt16.toNat_inj.mp
  unfold toBits16 ofBits16
  simp only [UInt16.toNat_ofNat']
  rw [Nat.testBit_eq_decide_div_mod_eq]
  by_cases h1 : h.toNat / 2 ^ 15 % 2 = 1
  · simp only [h1, decide_true, if_true]; omega
  · simp only [h1, decide_false, Bool.false_eq_true, if_false]; omega

open Ieee in
/-- The conversions of Rust. -/
theorem exact_conv : Exact conv where
  half h := by
    show ofHalf (toHalf (ofHalf h)) = ofHalf h
    have hx : (ofBits16 h).mag < 2 ^ 15 := Nat.mod_lt _ (by decide)
    rw [← toBits16_ofBits16 h]
    by_cases hf : (ofBits16 h).Fin
    · rw [half_fin hf]
    · have hi : half.inf ≤ (ofBits16 h).mag := Nat.le_of_not_lt hf
      obtain ⟨k, hk⟩ := Nat.exists_eq_add_of_le hi
      have h1 := half_inf
      have := half_signal k (by omega) (ofBits16 h).neg
      rw [← hk] at this
      exact this
  byte h := by
    show ofByte (toByte (ofByte h)) = ofByte h
    have := byte_stable h.toNat h.toNat_lt
    rw [UInt8.ofNat_toNat] at this
    rw [this]

/-- A mesh file of any origin whose attributes have the formats that are used for saving: after opening and saving it, the
data is the same. -/
theorem C82_mesh (bounds : List (Vector F32 3) → Mesh.BoundingInfo) (file : Bytes) (m : Mesh) (hm : readAs Mesh file = .ok m)
    (hk : KeepsMesh m) (d : MeshData) (hr : MeshData.read Ieee.conv file = .ok d) (bytes : Bytes)
    (hw : d.write Ieee.conv bounds = .ok bytes) (hl : bytes.length < 2 ^ 32) : MeshData.read Ieee.conv bytes = .ok d := by
  have hs := (C57_layout Ieee.conv file m hm d).mp hr
  rw [C45_mesh Ieee.conv bounds d bytes hw hl, map_self_of (mesh_kept exact_conv hs hk)]
  have hok : ∃ m', toMesh Ieee.conv bounds d = .ok m' := by
    simp only [MeshData.write] at hw
    split at hw
    · cases hw
    · exact ⟨_, ‹_›⟩
  refine (toMesh_isOk.mp hok).1.imp_of_mem ?_
  intro a b ha hb hab
  rwa [names_kept hs a ha, names_kept hs b hb]

/-! ## Files -/

/-- A file of version 1.10 with a color and an attribute of two components in the second vertex buffer, which no program
that uses the library has written: the color comes first, and there are bytes between the attributes. -/
def colorMesh (uv : Mesh.AttributeDataTypeV10) : Mesh := .V10 {
  model_name := none
  bounding_info := ⟨⟨⟨0, 0, 0⟩, 0⟩, ⟨⟨0, 0, 0⟩, ⟨0, 0, 0⟩⟩, ⟨⟨0, 0, 0⟩, ⟨⟨0, 0, 0⟩, ⟨0, 0, 0⟩, ⟨0, 0, 0⟩⟩, ⟨0, 0, 0⟩⟩⟩
  unk1 := 0
  objects := [{
    name := some ⟨[0x61], by decide⟩, subindex := 1, parent_bone_name := none, vertex_count := 1
    vertex_index_count := 3, unk2 := 3, vertex_buffer0_offset := 0, vertex_buffer1_offset := 1
    vertex_buffer2_offset := 0, vertex_buffer3_offset := 0, stride0 := 0, stride1 := 16, stride2 := 0, stride3 := 0
    index_buffer_offset := 0, unk8 := 0, draw_element_type := .UnsignedShort, use_vertex_skinning := 0
    sort_bias := -1, depth_flags := ⟨1, 0⟩
    bounding_info := ⟨⟨⟨0, 0, 0⟩, 0⟩, ⟨⟨0, 0, 0⟩, ⟨0, 0, 0⟩⟩, ⟨⟨0, 0, 0⟩, ⟨⟨0, 0, 0⟩, ⟨0, 0, 0⟩, ⟨0, 0, 0⟩⟩, ⟨0, 0, 0⟩⟩⟩
    attributes := [⟨.ColorSet, .Byte4, 1, 0, 0, none, [some ⟨[0x43], by decide⟩]⟩,
      ⟨.TextureCoordinate, uv, 1, 5, 0, none, [some ⟨[0x55], by decide⟩]⟩] }]
  buffer_sizes := [0, 17], polygon_index_size := 6
  vertex_buffers := [[], [0, 255, 128, 3, 1, 77, 0xcd, 0xcc, 0xcc, 0x3d, 0, 0, 0x80, 0x3f, 0, 0, 0]]
  index_buffer := [0, 0, 0, 0, 0, 0]
  rigging_buffers := [] }

/-- What the file shows is saved, and the saved file shows the same. -/
def keepsData (m : Mesh) : Option Bool :=
  match MeshData.ofMesh Ieee.conv m with
  | .error _ => none
  | .ok d =>
    match d.write Ieee.conv exampleBounds with
    | .error _ => none
    | .ok bytes =>
      match MeshData.read Ieee.conv bytes with
      | .error _ => none
      | .ok d' => some (d' = d)

example : KeepsMesh (colorMesh .HalfFloat2) := by
  intro o ho a ha usage format hu hf
  simp only [List.mem_singleton] at ho
  subst ho
  simp only [List.map_cons, List.map_nil, List.mem_cons, List.not_mem_nil, or_false] at ha
  rcases ha with rfl | rfl <;> cases hu <;> cases hf
  · exact .inr (.inr (.inr (.inr (.inr ⟨rfl, rfl, rfl⟩))))
  · exact .inr (.inr (.inr (.inl ⟨rfl, rfl⟩)))

example : ∃ bytes, writeAs (colorMesh .HalfFloat2) = .ok bytes := by
  obtain ⟨bytes, h⟩ : ∃ b, liftWrite (writeAs (colorMesh .HalfFloat2)) = .ok b := isOk_iff.mp (by decide +kernel)
  exact ⟨bytes, liftWrite_ok.mp h⟩

example : keepsData (colorMesh .HalfFloat2) = some true := by decide +kernel

/-- The formats matter: texture coordinates of a 1.10 file which are floats lose precision when the file is saved. -/
theorem C82_other_format : ∃ (file : Bytes) (d d' : MeshData) (bytes : Bytes), MeshData.read Ieee.conv file = .ok d ∧
    d.write Ieee.conv exampleBounds = .ok bytes ∧ MeshData.read Ieee.conv bytes = .ok d' ∧ d' ≠ d := by
  obtain ⟨file, hf⟩ : ∃ b, liftWrite (writeAs (colorMesh .Float2)) = .ok b := isOk_iff.mp (by decide +kernel)
  have hr := C01_format_round_trip _ file (liftWrite_ok.mp hf)
  have h : keepsData (colorMesh .Float2) = some false := by decide +kernel
  unfold keepsData at h
  split at h
  · cases h
  rename_i d h1
  split at h
  · cases h
  rename_i bytes h2
  split at h
  · cases h
  rename_i d' h3
  refine ⟨file, d, d', bytes, ?_, h2, h3, by simpa using h⟩
  rw [MeshData.read, hr]
  simp only [liftRead, h1]

end Verif.Props
