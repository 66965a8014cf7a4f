import Verif.Props.MaterialEdits
import Verif.Data.DataFiles
/-!
# Two runs of the writer of meshes
-/

namespace Verif.Props
open Verif Derive MeshData

/-! ## Specification -/

/-- The bytes that change in a vector: 4 for each component that changes. -/
def editVec {n : Nat} (v v' : Vector F32 n) : Option Nat := editAll (fun x x' => some (changed 4 x x')) v.toList v'.toList

/-- The same number of vectors of the same kind. -/
def editVectors : VectorData → VectorData → Option Nat
  | .Vector2 v, .Vector2 v' => editAll editVec v v'
  | .Vector3 v, .Vector3 v' => editAll editVec v v'
  | .Vector4 v, .Vector4 v' => editAll editVec v v'
  | _, _ => none

/-- Attributes with the same name. -/
def editAttribute (a a' : AttributeData) : Option Nat := if a.name = a'.name then editVectors a.data a'.data else none

/-- The positions the bounding information is calculated from. -/
def shownPositions (o : MeshObjectData) : List (Vector F32 3) :=
  match o.positions.head? with
  | some a => a.data.toVec3
  | none => []

/-- The bytes that change in an object: the attributes, the bounding information if a position changed, and the flags. -/
def editObject (o o' : MeshObjectData) : Option Nat :=
  if o.name = o'.name ∧ o.subindex = o'.subindex ∧ o.parent_bone_name = o'.parent_bone_name ∧
      o.vertex_indices = o'.vertex_indices ∧ o.bone_influences = o'.bone_influences then
    plus (some (changed 4 o.sort_bias o'.sort_bias + (changed 1 o.disable_depth_write o'.disable_depth_write +
      changed 1 o.disable_depth_test o'.disable_depth_test) + changed 100 (shownPositions o) (shownPositions o'))) <|
    plus (editAll editAttribute o.positions o'.positions) <|
    plus (editAll editAttribute o.normals o'.normals) <|
    plus (editAll editAttribute o.binormals o'.binormals) <|
    plus (editAll editAttribute o.tangents o'.tangents) <|
    plus (editAll editAttribute o.texture_coordinates o'.texture_coordinates) <|
    editAll editAttribute o.color_sets o'.color_sets
  else none

/-- The bytes that change in a mesh. -/
def editMeshes (d d' : MeshData) : Option Nat :=
  if d.major_version = d'.major_version ∧ d.minor_version = d'.minor_version then
    plus (some (changed 100 (d.objects.flatMap shownPositions) (d'.objects.flatMap shownPositions))) (editAll editObject d.objects d'.objects)
  else none

/-! ## Vectors -/

theorem differences_append {a a' b b' : Bytes} (h : a.length = a'.length) :
    (differences (a ++ b) (a' ++ b')).card ≤ (differences a a').card + (differences b b').card := by
  have hs : differences (a ++ b) (a' ++ b') ⊆ differences a a' ∪ (differences b b').image (a.length + ·) := by
    intro i hi
    rw [mem_differences] at hi
    rw [Finset.mem_union]
    by_cases hl : i < a.length
    · left
      rw [List.getElem?_append_left hl, List.getElem?_append_left (h ▸ hl)] at hi
      exact mem_differences.2 hi
    · right
      rw [List.getElem?_append_right (by omega), List.getElem?_append_right (by omega), ← h] at hi
      exact Finset.mem_image.2 ⟨i - a.length, mem_differences.2 hi, by omega⟩
  have c1 := Finset.card_le_card hs
  have c2 := Finset.card_union_le (differences a a') ((differences b b').image (a.length + ·))
  have c3 := Finset.card_image_le (s := differences b b') (f := (a.length + ·))
  omega

theorem differences_flatMap {enc : F32 → Bytes} {m : Nat} (hm : m ≤ 4) (he : ∀ x, (enc x).length = m) :
    ∀ {l l' : List F32} {k : Nat}, editAll (fun x x' => some (changed 4 x x')) l l' = some k →
      (l.flatMap enc).length = (l'.flatMap enc).length ∧ (differences (l.flatMap enc) (l'.flatMap enc)).card ≤ k
  | [], [], _, h => by cases h; exact ⟨rfl, (differences_self _).le⟩
  | [], _ :: _, _, h => by cases h
  | _ :: _, [], _, h => by cases h
  | x :: l, x' :: l', _, h => by
    obtain ⟨_, b, h1, h2, rfl⟩ := plus_parts h
    cases h1
    have ih := differences_flatMap hm he h2
    have hl : (enc x).length = (enc x').length := by rw [he, he]
    refine ⟨by simp only [List.flatMap_cons, List.length_append, hl, ih.1], ?_⟩
    rw [List.flatMap_cons, List.flatMap_cons]
    refine (differences_append hl).trans (Nat.add_le_add ?_ ih.2)
    unfold changed
    split
    · next e => rw [e, differences_self]
    · have := differences_le (enc x) (enc x')
      rw [he, he, Nat.max_self] at this
      omega

theorem near_vectors {n : Nat} {enc : F32 → Bytes} {m : Nat} (hm : m ≤ 4) (he : ∀ x, (enc x).length = m) (offset stride : Nat) :
    ∀ {vs vs' : List (Vector F32 n)} {k : Nat} (i : Nat), editAll editVec vs vs' = some k → ∀ {j w w'}, Near j w w' →
      Near (j + k) (writeVectors enc offset stride i vs w) (writeVectors enc offset stride i vs' w')
  | [], [], _, _, h, _, _, _, hw => by cases h; exact hw
  | [], _ :: _, _, _, h, _, _, _, _ => by cases h
  | _ :: _, [], _, _, h, _, _, _, _ => by cases h
  | v :: vs, v' :: vs', _, i, h, j, w, w', hw => by
    obtain ⟨a, b, h1, h2, rfl⟩ := plus_parts h
    have := differences_flatMap hm he h1
    rw [← Nat.add_assoc]
    exact near_vectors hm he offset stride (i + 1) h2 ((hw.seek _).puts this.1 this.2)

theorem writeVectors_map {n : Nat} {enc : β → Bytes} (f : α → β) (offset stride : Nat) : ∀ (vs : List (Vector α n)) (i : Nat) (w : W),
    writeVectors enc offset stride i (vs.map (·.map f)) w = writeVectors (fun x => enc (f x)) offset stride i vs w
  | [], _, _ => rfl
  | v :: vs, i, w => by
    rw [List.map_cons, writeVectors, writeVectors, writeVectors_map f offset stride vs]
    congr 2
    simp [Vector.toList_map, List.flatMap_map]

/-- Data of the same type, written to the same places. -/
structure NearV {V D : Type} (write : V → Nat → Nat → W → W) (ty : V → D) (k : Nat) (d d' : V) : Prop where
  ty : ty d = ty d'
  write : ∀ offset stride {j w w'}, Near j w w' → Near (j + k) (write d offset stride w) (write d' offset stride w')

theorem near_f32 {n : Nat} {vs vs' : List (Vector F32 n)} {k : Nat} (h : editAll editVec vs vs' = some k) (offset stride : Nat)
    {j w w'} (hw : Near j w w') : Near (j + k) (writeVectorData f32Bytes vs offset stride w) (writeVectorData f32Bytes vs' offset stride w') :=
  near_vectors (m := 4) le_rfl (fun _ => leBytes_length _ _) offset stride 0 h hw

theorem near_half (f : F32 → UInt16) {n : Nat} {vs vs' : List (Vector F32 n)} {k : Nat} (h : editAll editVec vs vs' = some k)
    (offset stride : Nat) {j w w'} (hw : Near j w w') :
    Near (j + k) (writeVectorData encF16 (vs.map (·.map f)) offset stride w) (writeVectorData encF16 (vs'.map (·.map f)) offset stride w') := by
  unfold writeVectorData
  rw [writeVectors_map, writeVectors_map]
  exact near_vectors (m := 2) (by decide) (fun _ => leBytes_length _ _) offset stride 0 h hw

theorem near_byte (f : F32 → UInt8) {n : Nat} {vs vs' : List (Vector F32 n)} {k : Nat} (h : editAll editVec vs vs' = some k)
    (offset stride : Nat) {j w w'} (hw : Near j w w') :
    Near (j + k) (writeVectorData encU8 (vs.map (·.map f)) offset stride w) (writeVectorData encU8 (vs'.map (·.map f)) offset stride w') := by
  unfold writeVectorData
  rw [writeVectors_map, writeVectors_map]
  exact near_vectors (m := 1) (by decide) (fun _ => leBytes_length _ _) offset stride 0 h hw

/-- A conversion of vectors to what is saved. -/
def Converts {V D : Type} (write : V → Nat → Nat → W → W) (ty : V → D) (f : VectorData → V) : Prop :=
  ∀ v v' k, editVectors v v' = some k → NearV write ty k (f v) (f v')

theorem positionsV10 : Converts VectorDataV10.write vectorTypeV10 VectorDataV10.fromPositions := by
  intro v v' k h
  cases v <;> cases v' <;> first | exact ⟨rfl, fun _ _ _ _ _ hw => near_f32 h _ _ hw⟩ | exact absurd h (by simp [editVectors])

theorem vectorsV10 (F : FloatConv) : Converts VectorDataV10.write vectorTypeV10 (VectorDataV10.fromVectors F) := by
  intro v v' k h
  cases v <;> cases v' <;> first | exact ⟨rfl, fun _ _ _ _ _ hw => near_f32 h _ _ hw⟩ |
    exact ⟨rfl, fun _ _ _ _ _ hw => near_half _ h _ _ hw⟩ | exact absurd h (by simp [editVectors])

theorem colorsV10 (F : FloatConv) : Converts VectorDataV10.write vectorTypeV10 (VectorDataV10.fromColors F) := by
  intro v v' k h
  cases v <;> cases v' <;> first | exact ⟨rfl, fun _ _ _ _ _ hw => near_f32 h _ _ hw⟩ |
    exact ⟨rfl, fun _ _ _ _ _ hw => near_half _ h _ _ hw⟩ | exact ⟨rfl, fun _ _ _ _ _ hw => near_byte _ h _ _ hw⟩ | exact absurd h (by simp [editVectors])

theorem positionsV8 : Converts VectorDataV8.write vectorTypeV8 VectorDataV8.fromPositions := by
  intro v v' k h
  cases v <;> cases v' <;> first | exact ⟨rfl, fun _ _ _ _ _ hw => near_f32 h _ _ hw⟩ | exact absurd h (by simp [editVectors])

theorem vectorsV8 (F : FloatConv) : Converts VectorDataV8.write vectorTypeV8 (VectorDataV8.fromVectors F) := by
  intro v v' k h
  cases v <;> cases v' <;> first | exact ⟨rfl, fun _ _ _ _ _ hw => near_f32 h _ _ hw⟩ |
    exact ⟨rfl, fun _ _ _ _ _ hw => near_half _ h _ _ hw⟩ | exact absurd h (by simp [editVectors])

theorem colorsV8 (F : FloatConv) : Converts VectorDataV8.write vectorTypeV8 (VectorDataV8.fromColors F) := by
  intro v v' k h
  cases v <;> cases v' <;> first | exact ⟨rfl, fun _ _ _ _ _ hw => near_f32 h _ _ hw⟩ |
    exact ⟨rfl, fun _ _ _ _ _ hw => near_byte _ h _ _ hw⟩ | exact absurd h (by simp [editVectors])

/-! ## Attributes -/

section
variable {U V D A : Type} {write : V → Nat → Nat → W → W} {ty : V → D}

/-- The same attributes with near data. -/
inductive NearL (write : V → Nat → Nat → W → W) (ty : V → D) : Nat → List (String × Nat × U × V) → List (String × Nat × U × V) → Prop
  | nil : NearL write ty 0 [] []
  | cons {k m d d' l l'} (n : String) (i : Nat) (u : U) : NearV write ty k d d' → NearL write ty m l l' →
      NearL write ty (k + m) ((n, i, u, d) :: l) ((n, i, u, d') :: l')

theorem NearL.append {k m : Nat} {a a' b b' : List (String × Nat × U × V)} (h : NearL write ty k a a') (h' : NearL write ty m b b') :
    NearL write ty (k + m) (a ++ b) (a' ++ b') := by
  induction h with
  | nil => rw [Nat.zero_add]; exact h'
  | cons n i u hd _ ih => rw [Nat.add_assoc]; exact .cons n i u hd ih

theorem nearL_numbered {f : VectorData → V} (hf : Converts write ty f) (u : U) :
    ∀ {l l' : List AttributeData} {k : Nat}, editAll editAttribute l l' = some k → NearL write ty k (numbered l u f) (numbered l' u f) := by
  have : ∀ {l l' : List AttributeData} {k : Nat} (s : Nat), editAll editAttribute l l' = some k →
      NearL write ty k ((l.zipIdx s).map fun (a, i) => (a.name, i, u, f a.data)) ((l'.zipIdx s).map fun (a, i) => (a.name, i, u, f a.data)) := by
    intro l
    induction l with
    | nil =>
      intro l' k s h
      cases l' with
      | nil => cases h; exact .nil
      | cons _ _ => cases h
    | cons a l ih =>
      intro l' k s h
      cases l' with
      | nil => cases h
      | cons a' l' =>
        obtain ⟨x, y, hx, hy, rfl⟩ := plus_parts h
        unfold editAttribute at hx
        split at hx
        · next hn =>
          simp only [List.zipIdx_cons, List.map_cons, ← hn]
          exact .cons _ _ _ (hf _ _ _ hx) (ih _ hy)
        · cases hx
  intro l l' k h
  exact this 0 h

/-- Data lists that are near. -/
inductive NearD (write : V → Nat → Nat → W → W) (ty : V → D) : Nat → List V → List V → Prop
  | nil : NearD write ty 0 [] []
  | cons {k m d d' l l'} : NearV write ty k d d' → NearD write ty m l l' → NearD write ty (k + m) (d :: l) (d' :: l')

theorem nearD_create {createAttribute : String → Nat → UInt32 → U → D → Nat → A} {sizeInBytes : A → Nat} {i : UInt32} {k : Nat}
    {l l' : List (String × Nat × U × V)} (h : NearL write ty k l l') : ∀ offset,
      (createBufferAttributes createAttribute ty sizeInBytes i offset l).map (·.1) =
        (createBufferAttributes createAttribute ty sizeInBytes i offset l').map (·.1) ∧
      NearD write ty k ((createBufferAttributes createAttribute ty sizeInBytes i offset l).map (·.2))
        ((createBufferAttributes createAttribute ty sizeInBytes i offset l').map (·.2)) := by
  induction h with
  | nil => exact fun _ => ⟨rfl, .nil⟩
  | cons n j u hd _ ih =>
    intro offset
    simp only [createBufferAttributes, List.map_cons, ← hd.ty]
    exact ⟨congrArg _ (ih _).1, .cons hd (ih _).2⟩

theorem near_writeAttributeData {g : D → Nat} {stride k : Nat} {l l' : List V} (h : NearD write ty k l l') : ∀ offset {j w w'}, Near j w w' →
    Near (j + k) (writeAttributeData write (fun d => g (ty d)) stride offset l w) (writeAttributeData write (fun d => g (ty d)) stride offset l' w') := by
  induction h with
  | nil => exact fun _ _ _ _ hw => hw
  | cons hd _ ih =>
    intro offset j w w' hw
    simp only [writeAttributeData, ← hd.ty]
    rw [← Nat.add_assoc]
    exact ih _ (hd.write _ _ hw)

/-- The same attributes and strides; the data of the first two buffers are near. -/
structure NearA (k : Nat) (m m' : MeshAttributes A) : Prop where
  attributes : m.attributes = m'.attributes
  use : m.use_buffer2 = m'.use_buffer2
  s0 : m.buffer_info.b0.1 = m'.buffer_info.b0.1
  s1 : m.buffer_info.b1.1 = m'.buffer_info.b1.1
  b2 : m.buffer_info.b2 = m'.buffer_info.b2
  b3 : m.buffer_info.b3 = m'.buffer_info.b3
  near : ∃ k0 k1, k0 + k1 = k ∧
    (∀ base {j w w'}, Near j w w' → Near (j + k0) (writeBuffer m.buffer_info.b0 base w) (writeBuffer m'.buffer_info.b0 base w')) ∧
    (∀ base {j w w'}, Near j w w' → Near (j + k1) (writeBuffer m.buffer_info.b1 base w) (writeBuffer m'.buffer_info.b1 base w'))

theorem nearA_create {createAttribute : String → Nat → UInt32 → U → D → Nat → A} {sizeInBytes : A → Nat} {versioned : List V → VersionedVectorData}
    {g : D → Nat} {use : Bool} {k0 k1 : Nat}
    (hv : ∀ (s : UInt32) (l : List V) base w, writeBuffer (s, versioned l) base w = writeAttributeData write (fun d => g (ty d)) s.toNat base l w)
    {x x' y y' : List (String × Nat × U × V)} (h0 : NearL write ty k0 x x') (h1 : NearL write ty k1 y y') :
    NearA (k0 + k1)
      (createAttributesFromData x y use (fun data i => createBufferAttributes createAttribute ty sizeInBytes i 0 data) sizeInBytes versioned)
      (createAttributesFromData x' y' use (fun data i => createBufferAttributes createAttribute ty sizeInBytes i 0 data) sizeInBytes versioned) := by
  have c0 := nearD_create (createAttribute := createAttribute) (sizeInBytes := sizeInBytes) (i := 0) h0 0
  have c1 := nearD_create (createAttribute := createAttribute) (sizeInBytes := sizeInBytes) (i := 1) h1 0
  have s0 : (createBufferAttributes createAttribute ty sizeInBytes 0 0 x).map (fun z => sizeInBytes z.1) =
      (createBufferAttributes createAttribute ty sizeInBytes 0 0 x').map (fun z => sizeInBytes z.1) := by
    have := congrArg (List.map sizeInBytes) c0.1
    simpa only [List.map_map, Function.comp_def] using this
  have s1 : (createBufferAttributes createAttribute ty sizeInBytes 1 0 y).map (fun z => sizeInBytes z.1) =
      (createBufferAttributes createAttribute ty sizeInBytes 1 0 y').map (fun z => sizeInBytes z.1) := by
    have := congrArg (List.map sizeInBytes) c1.1
    simpa only [List.map_map, Function.comp_def] using this
  refine ⟨?_, rfl, ?_, ?_, rfl, rfl, k0, k1, rfl, ?_, ?_⟩
  · simp only [createAttributesFromData, c0.1, c1.1]
  · simp only [createAttributesFromData, s0]
  · simp only [createAttributesFromData, s1]
  · intro base j w w' hw
    simp only [createAttributesFromData, hv, s0]
    exact near_writeAttributeData c0.2 _ hw
  · intro base j w w' hw
    simp only [createAttributesFromData, hv, s1]
    exact near_writeAttributeData c1.2 _ hw

end

/-! ## Objects -/

theorem editVectors_len {v v' : VectorData} {k : Nat} (h : editVectors v v' = some k) : v.len = v'.len := by
  cases v <;> cases v' <;> first | exact editAll_length h | exact absurd h (by simp [editVectors])

theorem editAttributes_lens : ∀ {l l' : List AttributeData} {k : Nat}, editAll editAttribute l l' = some k →
    (l.map fun a => a.data.len) = l'.map fun a => a.data.len
  | [], [], _, _ => rfl
  | [], _ :: _, _, h => by cases h
  | _ :: _, [], _, h => by cases h
  | a :: l, a' :: l', _, h => by
    obtain ⟨x, y, hx, hy, rfl⟩ := plus_parts h
    unfold editAttribute at hx
    split at hx
    · rw [List.map_cons, List.map_cons, editVectors_len hx, editAttributes_lens hy]
    · cases hx

/-- What `editObject` says. -/
structure SameObject (k : Nat) (o o' : MeshObjectData) : Prop where
  name : o.name = o'.name
  subindex : o.subindex = o'.subindex
  parent : o.parent_bone_name = o'.parent_bone_name
  indices : o.vertex_indices = o'.vertex_indices
  influences : o.bone_influences = o'.bone_influences
  attributes : ∃ k1 k2 k3 k4 k5 k6, editAll editAttribute o.positions o'.positions = some k1 ∧
    editAll editAttribute o.normals o'.normals = some k2 ∧ editAll editAttribute o.binormals o'.binormals = some k3 ∧
    editAll editAttribute o.tangents o'.tangents = some k4 ∧
    editAll editAttribute o.texture_coordinates o'.texture_coordinates = some k5 ∧
    editAll editAttribute o.color_sets o'.color_sets = some k6 ∧
    k = changed 4 o.sort_bias o'.sort_bias + (changed 1 o.disable_depth_write o'.disable_depth_write +
      changed 1 o.disable_depth_test o'.disable_depth_test) + changed 100 (shownPositions o) (shownPositions o') +
      (k1 + (k2 + (k3 + (k4 + (k5 + k6)))))

theorem editObject_some {o o' : MeshObjectData} {k : Nat} (h : editObject o o' = some k) : SameObject k o o' := by
  unfold editObject at h
  split at h
  · next hn =>
    obtain ⟨_, _, h0, g0, rfl⟩ := plus_parts h
    cases h0
    obtain ⟨k1, _, h1, g1, rfl⟩ := plus_parts g0
    obtain ⟨k2, _, h2, g2, rfl⟩ := plus_parts g1
    obtain ⟨k3, _, h3, g3, rfl⟩ := plus_parts g2
    obtain ⟨k4, _, h4, g4, rfl⟩ := plus_parts g3
    obtain ⟨k5, k6, h5, h6, rfl⟩ := plus_parts g4
    exact ⟨hn.1, hn.2.1, hn.2.2.1, hn.2.2.2.1, hn.2.2.2.2, k1, k2, k3, k4, k5, k6, h1, h2, h3, h4, h5, h6, rfl⟩
  · cases h

theorem vertexCount_same {k : Nat} {o o' : MeshObjectData} (h : SameObject k o o') : o.vertexCount = o'.vertexCount := by
  obtain ⟨k1, k2, k3, k4, k5, k6, h1, h2, h3, h4, h5, h6, -⟩ := h.attributes
  unfold MeshObjectData.vertexCount
  rw [editAttributes_lens h1, editAttributes_lens h2, editAttributes_lens h3, editAttributes_lens h4, editAttributes_lens h5,
    editAttributes_lens h6]

/-- The changes of an object besides its attributes. -/
def flagsEdit (o o' : MeshObjectData) : Nat := changed 4 o.sort_bias o'.sort_bias + (changed 1 o.disable_depth_write o'.disable_depth_write +
      changed 1 o.disable_depth_test o'.disable_depth_test) + changed 100 (shownPositions o) (shownPositions o')

/-- Attributes are created from objects like this: the buffers change by at most what changes in the attributes. -/
def Creates (create : MeshObjectData → MeshAttributes A) : Prop :=
  ∀ o o' k, SameObject k o o' → ∃ m, flagsEdit o o' + m ≤ k ∧ NearA m (create o) (create o')

theorem createsV10 (F : FloatConv) : Creates (createAttributesV10 F) := by
  intro o o' k h
  obtain ⟨k1, k2, k3, k4, k5, k6, h1, h2, h3, h4, h5, h6, rfl⟩ := h.attributes
  refine ⟨(k1 + k2 + k3 + k4) + (k5 + k6), by unfold flagsEdit; omega, ?_⟩
  exact nearA_create (write := VectorDataV10.write) (ty := vectorTypeV10) (g := sizeInBytesV10) (fun _ _ _ _ => rfl)
    ((((nearL_numbered positionsV10 _ h1).append (nearL_numbered (vectorsV10 F) _ h2)).append (nearL_numbered (vectorsV10 F) _ h3)).append
      (nearL_numbered (vectorsV10 F) _ h4)) ((nearL_numbered (vectorsV10 F) _ h5).append (nearL_numbered (colorsV10 F) _ h6))

theorem createsV9 (F : FloatConv) : Creates (createAttributesV9 F) := by
  intro o o' k h
  obtain ⟨k1, k2, k3, k4, k5, k6, h1, h2, h3, h4, h5, h6, rfl⟩ := h.attributes
  refine ⟨(k1 + k2 + k3 + k4) + (k5 + k6), by unfold flagsEdit; omega, ?_⟩
  exact nearA_create (write := VectorDataV8.write) (ty := vectorTypeV8) (g := sizeInBytesV8) (fun _ _ _ _ => rfl)
    ((((nearL_numbered positionsV8 _ h1).append (nearL_numbered (vectorsV8 F) _ h2)).append (nearL_numbered (vectorsV8 F) _ h3)).append
      (nearL_numbered (vectorsV8 F) _ h4)) ((nearL_numbered (vectorsV8 F) _ h5).append (nearL_numbered (colorsV8 F) _ h6))

theorem createsV8 (F : FloatConv) : Creates (createAttributesV8 F) := by
  intro o o' k h
  obtain ⟨k1, k2, k3, k4, k5, k6, h1, h2, h3, h4, h5, h6, rfl⟩ := h.attributes
  refine ⟨(k1 + k2 + k4) + (k5 + k6), by unfold flagsEdit; omega, ?_⟩
  exact nearA_create (write := VectorDataV8.write) (ty := vectorTypeV8) (g := sizeInBytesV8) (fun _ _ _ _ => rfl)
    (((nearL_numbered positionsV8 _ h1).append (nearL_numbered (vectorsV8 F) _ h2)).append
      (nearL_numbered (vectorsV8 F) _ h4)) ((nearL_numbered (vectorsV8 F) _ h5).append (nearL_numbered (colorsV8 F) _ h6))

/-- States of the buffers that differ in `k` bytes. -/
structure NearS (k : Nat) (s s' : BufferState) : Prop where
  b01 : ∃ k0 k1, k0 + k1 = k ∧ Near k0 s.buffers.b0 s'.buffers.b0 ∧ Near k1 s.buffers.b1 s'.buffers.b1
  b2 : s.buffers.b2 = s'.buffers.b2
  b3 : s.buffers.b3 = s'.buffers.b3
  offset : s.vertexBuffer2Offset = s'.vertexBuffer2Offset
  index : s.indexBuffer = s'.indexBuffer

/-- Objects that differ only in flags and the bounding information. -/
structure NearO (f : Nat) (o o' : Mesh.MeshObject A) : Prop where
  same : o' = { o with sort_bias := o'.sort_bias, depth_flags := o'.depth_flags, bounding_info := o'.bounding_info }
  flags : changed 4 o.sort_bias o'.sort_bias + (changed 1 o.depth_flags.disable_depth_write o'.depth_flags.disable_depth_write +
    changed 1 o.depth_flags.disable_depth_test o'.depth_flags.disable_depth_test) + changed 100 o.bounding_info o'.bounding_info ≤ f

theorem changed_map [DecidableEq α] [DecidableEq β] (f : α → β) (n : Nat) (a a' : α) : changed n (f a) (f a') ≤ changed n a a' := by
  unfold changed
  by_cases h : a = a'
  · rw [h, if_pos rfl, if_pos rfl]
  · rw [if_neg h]; split <;> omega

theorem near_object {create : MeshObjectData → MeshAttributes A} (hc : Creates create) (bounds : List (Vector F32 3) → Mesh.BoundingInfo)
    {d d' : MeshObjectData} {k : Nat} (h : SameObject k d d') {m : Nat} {s s' t : BufferState} (hs : NearS m s s') {o : Mesh.MeshObject A}
    (ho : createMeshObject bounds create d s = .ok (o, t)) :
    ∃ o' t' f m', createMeshObject bounds create d' s' = .ok (o', t') ∧ f + m' ≤ k ∧ NearO f o o' ∧ NearS (m + m') t t' := by
  obtain ⟨m', hm, hA⟩ := hc d d' k h
  obtain ⟨k0, k1, rfl, n0, n1⟩ := hs.b01
  obtain ⟨j0, j1, rfl, w0, w1⟩ := hA.near
  unfold createMeshObject at ho ⊢
  rw [← h.indices, ← vertexCount_same h]
  by_cases h3 : d.vertex_indices.length % 3 ≠ 0
  · rw [if_pos h3] at ho; cases ho
  rw [if_neg h3] at ho ⊢
  cases hv : d.vertexCount with
  | error e => rw [hv] at ho; cases ho
  | ok n =>
    rw [hv] at ho
    dsimp only at ho ⊢
    cases hi : (maxIndex d.vertex_indices).filter fun i => i.toNat ≥ n with
    | some i => rw [hi] at ho; cases ho
    | none =>
      rw [hi] at ho
      dsimp only at ho ⊢
      simp only [Except.ok.injEq, Prod.mk.injEq] at ho
      obtain ⟨rfl, rfl⟩ := ho
      refine ⟨_, _, flagsEdit d d', j0 + j1, rfl, hm, ⟨?_, ?_⟩, ?_⟩
      · simp only [h.name, h.subindex, h.parent, h.influences, n0.pos, n1.pos, hs.offset, hs.b3, hs.index, hA.attributes, hA.use, hA.s0,
          hA.s1, hA.b2, hA.b3]
      · unfold flagsEdit
        exact Nat.add_le_add (Nat.add_le_add (Nat.le_refl _) (Nat.add_le_add
          (changed_map (fun b : Bool => if b = true then (1 : UInt8) else 0) 1 d.disable_depth_write d'.disable_depth_write)
          (changed_map (fun b : Bool => if b = true then (1 : UInt8) else 0) 1 d.disable_depth_test d'.disable_depth_test)))
          (changed_map bounds 100 (shownPositions d) (shownPositions d'))
      · refine ⟨⟨k0 + j0, k1 + j1, by omega, ?_, ?_⟩, ?_, ?_, ?_, ?_⟩
        · have := w0 s.buffers.b0.pos n0
          rw [hA.use]
          split <;> simpa only [writeAttributes, ← n0.pos] using this
        · have := w1 s.buffers.b1.pos n1
          rw [hA.use]
          split <;> simpa only [writeAttributes, ← n1.pos] using this
        · simp only [writeAttributes, hA.b2, hs.b2, hs.offset, hA.use]
          split <;> rfl
        · simp only [writeAttributes, hA.b3, hs.b3, hA.use]
          split <;> rfl
        · simp only [hs.offset, hA.b2]
        · simp only [hs.index]

/-! ## Files -/

/-- Fields that did not change. -/
theorem Upto.kept {t : Ty} {v v' : t.Val} (h : v = v') {k : Nat} {o : Option Nat} (ho : Upto o k) : Upto (Derive.plus (t.edit v v') o) k := by
  subst h
  rw [Ty.edit_refl, zero_plus]; exact ho

theorem Upto.any {p : Prop} [Decidable p] {n : Nat} : Upto (some (if p then 0 else n)) n := by
  refine ⟨_, ?_, rfl⟩
  split <;> omega

theorem Upto.mono {o : Option Nat} {k m : Nat} (h : Upto o k) (hk : k ≤ m) : Upto o m := by
  obtain ⟨n, hn, e⟩ := h
  exact ⟨n, hn.trans hk, e⟩

theorem vector3_any (v v' : Vector3) : Upto (Vector3.ty.edit (Derives.val Vector3.codec v) (Derives.val Vector3.codec v')) 12 :=
  .plus (k := 4) (k' := 8) .any <| .plus (k := 4) (k' := 4) .any <| .plus (k' := 0) .any .zero

theorem matrix3_any (v v' : Matrix3x3) : Upto (Matrix3x3.ty.edit (Derives.val Matrix3x3.codec v) (Derives.val Matrix3x3.codec v')) 36 :=
  .plus (k := 12) (k' := 24) (vector3_any _ _) <| .plus (k := 12) (k' := 12) (vector3_any _ _) <| .plus (k' := 0) (vector3_any _ _) .zero

theorem bounding_upto (v v' : Mesh.BoundingInfo) :
    Upto (Mesh.BoundingInfo.ty.edit (Derives.val Mesh.BoundingInfo.codec v) (Derives.val Mesh.BoundingInfo.codec v')) (changed 100 v v') := by
  by_cases h : v = v'
  · subst h
    rw [changed_self, Ty.edit_refl]; exact .zero
  · unfold changed
    rw [if_neg h]
    exact .plus (k := 16) (k' := 84) (.plus (k := 12) (k' := 4) (vector3_any _ _) <| .plus (k' := 0) .any .zero) <|
      .plus (k := 24) (k' := 60) (.plus (k := 12) (k' := 12) (vector3_any _ _) <| .plus (k' := 0) (vector3_any _ _) .zero) <|
      .plus (k' := 0) (.plus (k := 12) (k' := 48) (vector3_any _ _) <| .plus (k := 36) (k' := 12) (matrix3_any _ _) <|
        .plus (k' := 0) (vector3_any _ _) .zero) .zero

theorem object_upto {A : Type} {aC : Codec A} {aT : Ty} [Derives aC aT] {o o' : Mesh.MeshObject A} {f : Nat} (h : NearO f o o') :
    Upto ((Mesh.MeshObject.ty aT).edit (Derives.val (Mesh.MeshObject.codec aC) o) (Derives.val (Mesh.MeshObject.codec aC) o')) f := by
  rw [h.same]
  have hf := h.flags
  rw [Nat.add_assoc] at hf
  refine Upto.mono ?_ hf
  exact .kept rfl <| .kept rfl <| .kept rfl <| .kept rfl <| .kept rfl <| .kept rfl <| .kept rfl <| .kept rfl <| .kept rfl <| .kept rfl <|
    .kept rfl <| .kept rfl <| .kept rfl <| .kept rfl <| .kept rfl <| .kept rfl <| .kept rfl <| .kept rfl <|
    .plus (changed_upto (congrArg fun x : Int32 => (Derives.val i32 x).val)) <|
    .plus (.plus (changed_upto (congrArg fun x : UInt8 => (Derives.val u8 x).val)) <|
      .plus (k' := 0) (changed_upto (congrArg fun x : UInt8 => (Derives.val u8 x).val)) .zero) <|
    .plus (k' := 0) (bounding_upto _ _) <| .kept rfl .zero

/-- The objects of a file. -/
def objectsEdit {A : Type} (aC : Codec A) (aT : Ty) [Derives aC aT] (os os' : List (Mesh.MeshObject A)) : Option Nat :=
  editAll (Mesh.MeshObject.ty aT).edit (os.map (Derives.val (Mesh.MeshObject.codec aC))) (os'.map (Derives.val (Mesh.MeshObject.codec aC)))

theorem near_objects {A : Type} (aC : Codec A) (aT : Ty) [Derives aC aT] {create : MeshObjectData → MeshAttributes A} (hc : Creates create)
    (bounds : List (Vector F32 3) → Mesh.BoundingInfo) : ∀ {l l' : List MeshObjectData} {k : Nat}, editAll editObject l l' = some k →
    ∀ {m : Nat} {s s' t : BufferState}, NearS m s s' → ∀ {os : List (Mesh.MeshObject A)},
    createMeshObjectsFrom bounds create l s = .ok (os, t) →
    ∃ os' t' f m', createMeshObjectsFrom bounds create l' s' = .ok (os', t') ∧ f + m' ≤ k ∧ Upto (objectsEdit aC aT os os') f ∧ NearS (m + m') t t'
  | [], [], _, h, m, s, s', t, hs, os, ho => by
    cases h
    cases ho
    exact ⟨[], s', 0, 0, rfl, le_rfl, .zero, hs⟩
  | [], _ :: _, _, h, _, _, _, _, _, _, _ => by cases h
  | _ :: _, [], _, h, _, _, _, _, _, _, _ => by cases h
  | d :: l, d' :: l', _, h, m, s, s', t, hs, os, ho => by
    obtain ⟨x, y, hx, hy, rfl⟩ := plus_parts h
    rw [createMeshObjectsFrom] at ho
    cases h1 : createMeshObject bounds create d s with
    | error e => rw [h1] at ho; cases ho
    | ok r =>
      obtain ⟨o, s1⟩ := r
      rw [h1] at ho
      dsimp only at ho
      cases h2 : createMeshObjectsFrom bounds create l s1 with
      | error e => rw [h2] at ho; cases ho
      | ok r2 =>
        obtain ⟨os2, t2⟩ := r2
        rw [h2] at ho
        simp only [Except.ok.injEq, Prod.mk.injEq] at ho
        obtain ⟨rfl, rfl⟩ := ho
        obtain ⟨o', s1', f1, m1, e1, hk1, hO, hs1⟩ := near_object hc bounds (editObject_some hx) hs h1
        obtain ⟨os', t', f2, m2, e2, hk2, hO2, hs2⟩ := near_objects aC aT hc bounds hy hs1 h2
        refine ⟨o' :: os', t', f1 + f2, m1 + m2, ?_, by omega, (object_upto hO).plus hO2, by rwa [← Nat.add_assoc]⟩
        rw [createMeshObjectsFrom, e1]
        dsimp only
        rw [e2]

theorem collect_same {g : MeshObjectData → Except MeshErr α} (hg : ∀ k o o', SameObject k o o' → g o = g o') :
    ∀ {l l' : List MeshObjectData} {k : Nat}, editAll editObject l l' = some k → collect g l = collect g l'
  | [], [], _, _ => rfl
  | [], _ :: _, _, h => by cases h
  | _ :: _, [], _, h => by cases h
  | _ :: _, _ :: _, _, h => by
    obtain ⟨_, _, hx, hy, -⟩ := plus_parts h
    rw [collect, collect, hg _ _ _ (editObject_some hx), collect_same hg hy]

theorem rigging_same {Wt : Type} [Weight Wt] {l l' : List MeshObjectData} {k : Nat} (h : editAll editObject l l' = some k) :
    (createRiggingBuffers l : Except MeshErr (List (Mesh.RiggingGroup Wt))) = createRiggingBuffers l' := by
  unfold createRiggingBuffers
  rw [collect_same (fun _ o o' h => ?_) h]
  unfold createRiggingGroup
  rw [h.influences, h.name, h.subindex]

theorem validate_same : ∀ {l l' : List MeshObjectData} {k : Nat} (seen : List (String × UInt64)), editAll editObject l l' = some k →
    validateFrom seen l = validateFrom seen l'
  | [], [], _, _, _ => rfl
  | [], _ :: _, _, _, h => by cases h
  | _ :: _, [], _, _, h => by cases h
  | _ :: _, _ :: _, _, seen, h => by
    obtain ⟨_, _, hx, hy, -⟩ := plus_parts h
    rw [validateFrom, validateFrom, (editObject_some hx).name, (editObject_some hx).subindex, validate_same _ hy]

theorem buffer_upto {k : Nat} {w w' : W} (h : Near k w w') : Upto (editBytes w.buf w'.buf) k := by
  refine ⟨_, h.log.render.2, ?_⟩
  exact if_pos h.log.render.1

/-- The value of a file with one version. -/
def innerEdit {A Wt : Type} (aC : Codec A) (aT : Ty) [Derives aC aT] (wC : Codec Wt) (wT : Ty) [Derives wC wT]
    (x x' : Mesh.MeshInner A Wt) : Option Nat :=
  (Mesh.MeshInner.ty aT wT).edit (Derives.val (Mesh.MeshInner.codec aC wC) x) (Derives.val (Mesh.MeshInner.codec aC wC) x')

theorem near_inner {A Wt : Type} [Weight Wt] (aC : Codec A) (aT : Ty) [Derives aC aT] (wC : Codec Wt) (wT : Ty) [Derives wC wT]
    {create : MeshObjectData → MeshAttributes A} (hc : Creates create) (bounds : List (Vector F32 3) → Mesh.BoundingInfo) {d d' : MeshData}
    {p p' : List (Vector F32 3)}
    {k : Nat} (h : editAll editObject d.objects d'.objects = some k) {v : MeshVertexData A} {x : Mesh.MeshInner A Wt}
    (hv : createMeshObjects bounds create d.objects = .ok v) (hx : createMeshInner (bounds p) v d = .ok x) :
    ∃ v' x', createMeshObjects bounds create d'.objects = .ok v' ∧ createMeshInner (bounds p') v' d' = .ok x' ∧
      Upto (innerEdit aC aT wC wT x x') (changed 100 p p' + k) := by
  unfold createMeshObjects at hv ⊢
  cases h1 : createMeshObjectsFrom bounds create d.objects ⟨⟨.init, .init, .init, .init⟩, 0, .init⟩ with
  | error e => rw [h1] at hv; cases hv
  | ok r =>
    obtain ⟨os, t⟩ := r
    rw [h1] at hv
    cases hv
    obtain ⟨os', t', f, m, e1, hk, hf, ht⟩ := near_objects aC aT hc bounds h (s' := ⟨⟨.init, .init, .init, .init⟩, 0, .init⟩)
      ⟨⟨0, 0, rfl, Near.init, Near.init⟩, rfl, rfl, rfl, rfl⟩ h1
    obtain ⟨k0, k1, hkk, n0, n1⟩ := ht.b01
    rw [e1]
    refine ⟨⟨os', [t'.buffers.b0.buf, t'.buffers.b1.buf, t'.buffers.b2.buf, t'.buffers.b3.buf], t'.indexBuffer.buf⟩, ?_⟩
    unfold createMeshInner at hx ⊢
    rw [← rigging_same h]
    cases hr : (createRiggingBuffers d.objects : Except MeshErr (List (Mesh.RiggingGroup Wt))) with
    | error e => rw [hr] at hx; cases hx
    | ok rigging =>
      rw [hr] at hx
      cases hx
      refine ⟨_, rfl, rfl, ?_⟩
      have hb := (bounding_upto (bounds p) (bounds p')).mono (changed_map bounds 100 p p')
      have hl : t.buffers.b0.buf.length = t'.buffers.b0.buf.length ∧ t.buffers.b1.buf.length = t'.buffers.b1.buf.length := ⟨n0.buf, n1.buf⟩
      have hB : Upto (editAll editBytes [t.buffers.b0.buf, t.buffers.b1.buf, t.buffers.b2.buf, t.buffers.b3.buf]
          [t'.buffers.b0.buf, t'.buffers.b1.buf, t'.buffers.b2.buf, t'.buffers.b3.buf]) m := by
        rw [ht.b2, ht.b3]
        have := (buffer_upto n0).plus <| (buffer_upto n1).plus <| Upto.plus (k := 0) (k' := 0) ⟨0, le_rfl, editBytes_refl t'.buffers.b2.buf⟩ <|
          Upto.plus (k := 0) (k' := 0) ⟨0, le_rfl, editBytes_refl t'.buffers.b3.buf⟩ .zero
        exact this.mono (by omega)
      refine Upto.mono (k := changed 100 p p' + (f + (m + 0))) ?_ (by omega)
      have e2 : [t.buffers.b0.buf, t.buffers.b1.buf, t.buffers.b2.buf, t.buffers.b3.buf].map (fun b : Bytes => UInt32.ofNat b.length) =
          [t'.buffers.b0.buf, t'.buffers.b1.buf, t'.buffers.b2.buf, t'.buffers.b3.buf].map (fun b : Bytes => UInt32.ofNat b.length) := by
        simp only [List.map_cons, hl.1, hl.2, ht.b2, ht.b3]
      have hB' : Upto ((Ty.list .buffer).edit (Derives.val (array byteBuffer) [t.buffers.b0.buf, t.buffers.b1.buf, t.buffers.b2.buf, t.buffers.b3.buf])
          (Derives.val (array byteBuffer) [t'.buffers.b0.buf, t'.buffers.b1.buf, t'.buffers.b2.buf, t'.buffers.b3.buf])) m := hB
      dsimp only
      rw [e2, ht.index]
      exact .kept rfl <| .plus hb <| .kept rfl <| .plus hf <| .kept rfl <| .kept rfl <| .plus hB' <| .kept rfl <| .kept rfl .zero

theorem mesh_close {A Wt : Type} {aC : Codec A} {aT : Ty} [Derives aC aT] {wC : Codec Wt} {wT : Ty} [Derives wC wT]
    {f : Mesh.MeshInner A Wt → Mesh}
    (hf : ∀ x x', SsbhType.format.version (f x) = SsbhType.format.version (f x'))
    (hv : ∀ x x', Mesh.ty.edit (DerivesFile.val (f x)) (DerivesFile.val (f x')) = innerEdit aC aT wC wT x x') {x x' : Mesh.MeshInner A Wt} {k : Nat}
    (h : Upto (innerEdit aC aT wC wT x x') k) {b : Bytes} (hb : writeAs (f x) = .ok b) : ∃ b', writeAs (f x') = .ok b' ∧ CloseBytes k b b' := by
  obtain ⟨n, hn, e⟩ := h
  have hc := (format_close (f x) (f x') n (hf x x') ((hv x x').trans e)).mono hn
  rw [hb] at hc
  cases hw : writeAs (f x') with
  | error e => rw [hw] at hc; exact hc.elim
  | ok c => rw [hw] at hc; exact ⟨c, rfl, hc⟩

theorem mesh_step {A Wt : Type} [Weight Wt] {aC : Codec A} {aT : Ty} [Derives aC aT] {wC : Codec Wt} {wT : Ty} [Derives wC wT]
    {f : Mesh.MeshInner A Wt → Mesh}
    (hf : ∀ x x', SsbhType.format.version (f x) = SsbhType.format.version (f x'))
    (hv : ∀ x x', Mesh.ty.edit (DerivesFile.val (f x)) (DerivesFile.val (f x')) = innerEdit aC aT wC wT x x') 
    {create : MeshObjectData → MeshAttributes A} (hc : Creates create) (bounds : List (Vector F32 3) → Mesh.BoundingInfo) {d d' : MeshData}
    {p p' : List (Vector F32 3)} {k : Nat} (h : editAll editObject d.objects d'.objects = some k) {b : Bytes}
    {v : MeshVertexData A} (h1 : createMeshObjects bounds create d.objects = .ok v)
    {x : Mesh.MeshInner A Wt} (h2 : createMeshInner (bounds p) v d = .ok x) (hb : writeAs (f x) = .ok b) :
    ∃ v' x' b', createMeshObjects bounds create d'.objects = .ok v' ∧ createMeshInner (bounds p') v' d' = .ok x' ∧ writeAs (f x') = .ok b' ∧
      CloseBytes (changed 100 p p' + k) b b' := by
  obtain ⟨v', x', e1, e2, hu⟩ := near_inner (p' := p') aC aT wC wT hc bounds h h1 h2
  obtain ⟨b', hb', hcl⟩ := mesh_close hf hv hu hb
  exact ⟨v', x', b', e1, e2, hb', hcl⟩

end Verif.Props
