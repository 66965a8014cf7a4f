import Verif.Props.MeshEditLaws
import Verif.Props.MeshData
/-!
# C93: small changes of meshes
-/

namespace Verif.Props
open Verif Derive MeshData

/-- C93 for meshes: changing numbers of attributes and flags of objects changes at most as many bytes of the file, the 100 bytes of
the bounding information of each object with other positions, and the 100 bytes of the bounding information of all objects. -/
theorem C93_mesh (F : FloatConv) (bounds : List (Vector F32 3) → Mesh.BoundingInfo) (d d' : MeshData) (k : Nat)
    (h : editMeshes d d' = some k) (b : Bytes) (hb : d.write F bounds = .ok b) : ∃ b', d'.write F bounds = .ok b' ∧ CloseBytes k b b' := by
  unfold editMeshes at h
  split at h
  · next hv =>
    obtain ⟨_, k, h1, h2, rfl⟩ := plus_parts h
    cases h1
    unfold MeshData.write at hb ⊢
    cases hm : d.toMesh F bounds with
    | error e => rw [hm] at hb; cases hb
    | ok m =>
      rw [hm] at hb
      dsimp only at hb
      have hw : writeAs m = .ok b := by
        cases hw : writeAs m with
        | error e => rw [hw] at hb; cases hb
        | ok c => rw [hw] at hb; cases hb; rfl
      have key : ∃ m' b', d'.toMesh F bounds = .ok m' ∧ writeAs m' = .ok b' ∧
          CloseBytes (changed 100 (d.objects.flatMap shownPositions) (d'.objects.flatMap shownPositions) + k) b b' := by
        unfold toMesh at hm ⊢
        rw [show validateSubindices d.objects = validateSubindices d'.objects from validate_same [] h2] at hm
        rw [← hv.1, ← hv.2]
        cases hval : validateSubindices d'.objects with
        | error e => rw [hval] at hm; cases hm
        | ok u =>
          rw [hval] at hm
          dsimp only at hm ⊢
          split at hm
          · next e =>
            rw [if_pos e]
            cases h1 : createMeshObjects bounds (createAttributesV10 F) d.objects with
            | error e => rw [h1] at hm; cases hm
            | ok v =>
              rw [h1] at hm
              cases h3 : (createMeshInner (bounds (d.objects.flatMap shownPositions)) v d : Except MeshErr (Mesh.MeshInner Mesh.AttributeV10 Bytes)) with
              | error e => exact absurd (hm.symm.trans (congrArg (Except.map Mesh.V10) h3)) (by simp [Except.map])
              | ok x =>
                have hx := hm.symm.trans (congrArg (Except.map Mesh.V10) h3)
                cases hx
                obtain ⟨v', x', b', e1, e2, e3, hc⟩ := mesh_step (f := .V10) (p' := d'.objects.flatMap shownPositions) (fun _ _ => rfl)
                  (fun _ _ => plus_zero' _) (createsV10 F) bounds h2 h1 h3 hw
                refine ⟨.V10 x', b', ?_, e3, hc⟩
                rw [e1]
                exact congrArg (Except.map Mesh.V10) e2
          · next e =>
            rw [if_neg e]
            split at hm
            · next e =>
              rw [if_pos e]
              cases h1 : createMeshObjects bounds (createAttributesV8 F) d.objects with
              | error e => rw [h1] at hm; cases hm
              | ok v =>
                rw [h1] at hm
                cases h3 : (createMeshInner (bounds (d.objects.flatMap shownPositions)) v d : Except MeshErr (Mesh.MeshInner Mesh.AttributeV8 (List Mesh.VertexWeightV8))) with
                | error e => exact absurd (hm.symm.trans (congrArg (Except.map Mesh.V8) h3)) (by simp [Except.map])
                | ok x =>
                  have hx := hm.symm.trans (congrArg (Except.map Mesh.V8) h3)
                  cases hx
                  obtain ⟨v', x', b', e1, e2, e3, hc⟩ := mesh_step (f := .V8) (p' := d'.objects.flatMap shownPositions) (fun _ _ => rfl)
                    (fun _ _ => plus_zero' _) (createsV8 F) bounds h2 h1 h3 hw
                  refine ⟨.V8 x', b', ?_, e3, hc⟩
                  rw [e1]
                  exact congrArg (Except.map Mesh.V8) e2
            · next e =>
              rw [if_neg e]
              split at hm
              · next e =>
                rw [if_pos e]
                cases h1 : createMeshObjects bounds (createAttributesV9 F) d.objects with
                | error e => rw [h1] at hm; cases hm
                | ok v =>
                  rw [h1] at hm
                  cases h3 : (createMeshInner (bounds (d.objects.flatMap shownPositions)) v d : Except MeshErr (Mesh.MeshInner Mesh.AttributeV9 (List Mesh.VertexWeightV8))) with
                  | error e => exact absurd (hm.symm.trans (congrArg (Except.map Mesh.V9) h3)) (by simp [Except.map])
                  | ok x =>
                    have hx := hm.symm.trans (congrArg (Except.map Mesh.V9) h3)
                    cases hx
                    obtain ⟨v', x', b', e1, e2, e3, hc⟩ := mesh_step (f := .V9) (p' := d'.objects.flatMap shownPositions) (fun _ _ => rfl)
                      (fun _ _ => plus_zero' _) (createsV9 F) bounds h2 h1 h3 hw
                    refine ⟨.V9 x', b', ?_, e3, hc⟩
                    rw [e1]
                    exact congrArg (Except.map Mesh.V9) e2
              · cases hm
      obtain ⟨m', b', e1, e2, hc⟩ := key
      refine ⟨b', ?_, hc⟩
      rw [e1]
      dsimp only
      rw [e2]
      rfl
  · cases h

theorem editVec_refl {n : Nat} (v : Vector F32 n) : editVec v v = some 0 := editAll_refl (fun x => by rw [changed_self]) _

theorem editVectors_refl (v : VectorData) : editVectors v v = some 0 := by
  cases v <;> exact editAll_refl editVec_refl _

theorem editAttribute_refl (a : AttributeData) : editAttribute a a = some 0 := by
  rw [editAttribute, if_pos rfl, editVectors_refl]

theorem editObject_refl (o : MeshObjectData) : editObject o o = some 0 := by
  simp only [editObject, and_self, if_true, changed_self, editAll_refl editAttribute_refl]
  rfl

theorem editVec_upto {n : Nat} (v v' : Vector F32 n) : Upto (editVec v v') (4 * n) := by
  have key : ∀ l l' : List F32, l.length = l'.length → Upto (editAll (fun x x' => some (changed 4 x x')) l l') (4 * l.length) := by
    intro l
    induction l with
    | nil => intro l' h; cases l' with
      | nil => exact .zero
      | cons => cases h
    | cons x l ih =>
      intro l' h
      cases l' with
      | nil => cases h
      | cons x' l' =>
        have := Upto.plus (o := some (changed 4 x x')) ⟨_, changed_le 4 x x', rfl⟩ (ih l' (by simpa using h))
        exact this.mono (by rw [List.length_cons]; omega)
  have := key v.toList v'.toList (by simp)
  rw [Vector.length_toList] at this
  exact this

theorem editVectors_set2 {vs : List (Vector F32 2)} (j : Nat) (x : Vector F32 2) : Upto (editVectors (.Vector2 vs) (.Vector2 (vs.set j x))) 8 := by
  cases h : vs[j]? with
  | none =>
    rw [List.set_eq_of_length_le (by simpa using h), editVectors_refl]
    exact Upto.zero.mono (by omega)
  | some v => rw [editVectors, editAll_set editVec_refl h]; exact editVec_upto v x

theorem editVectors_set3 {vs : List (Vector F32 3)} (j : Nat) (x : Vector F32 3) : Upto (editVectors (.Vector3 vs) (.Vector3 (vs.set j x))) 12 := by
  cases h : vs[j]? with
  | none =>
    rw [List.set_eq_of_length_le (by simpa using h), editVectors_refl]
    exact Upto.zero.mono (by omega)
  | some v => rw [editVectors, editAll_set editVec_refl h]; exact editVec_upto v x

theorem editMeshes_set (d : MeshData) {i : Nat} {o o' : MeshObjectData} (ho : d.objects[i]? = some o) {k : Nat} (h : Upto (editObject o o') k) :
    Upto (editMeshes d { d with objects := d.objects.set i o' })
      (changed 100 (d.objects.flatMap shownPositions) ((d.objects.set i o').flatMap shownPositions) + k) := by
  rw [editMeshes, if_pos ⟨rfl, rfl⟩, editAll_set editObject_refl ho]
  exact Upto.plus ⟨_, le_rfl, rfl⟩ h

theorem mesh_upto (F : FloatConv) (bounds : List (Vector F32 3) → Mesh.BoundingInfo) {d d' : MeshData} {k : Nat}
    (h : Upto (editMeshes d d') k) (b : Bytes) (hb : d.write F bounds = .ok b) : ∃ b', d'.write F bounds = .ok b' ∧ CloseBytes k b b' := by
  obtain ⟨n, hn, e⟩ := h
  obtain ⟨b', h1, h2⟩ := C93_mesh F bounds d d' n e b hb
  exact ⟨b', h1, h2.mono hn⟩

/-- Moving one vertex of an object changes at most the 12 bytes of its position and the 200 bytes of the bounding information of the
object and of the whole mesh. -/
theorem C93_vertex (F : FloatConv) (bounds : List (Vector F32 3) → Mesh.BoundingInfo) (d : MeshData) (i j : Nat) (o : MeshObjectData)
    (a : AttributeData) (rest : List AttributeData) (vs : List (Vector F32 3)) (x : Vector F32 3)
    (ho : d.objects[i]? = some o) (hp : o.positions = a :: rest) (ha : a.data = .Vector3 vs) (b : Bytes) (hb : d.write F bounds = .ok b) :
    ∃ b', { d with objects := d.objects.set i { o with positions := { a with data := .Vector3 (vs.set j x) } :: rest } }.write F bounds = .ok b' ∧
      CloseBytes 212 b b' := by
  refine mesh_upto F bounds ((editMeshes_set d (k := 112) ho ?_).mono ?_) b hb
  · rw [editObject, if_pos ⟨rfl, rfl, rfl, rfl, rfl⟩]
    simp only [changed_self, editAll_refl editAttribute_refl, plus_zero', hp, editAll]
    refine Upto.plus (k := 100) (k' := 12) ⟨_, ?_, rfl⟩ ?_
    · have := changed_le 100 (shownPositions o) (shownPositions { o with positions := { a with data := .Vector3 (vs.set j x) } :: rest })
      omega
    · rw [editAttribute, if_pos rfl, ha]
      exact editVectors_set3 j x
  · have := changed_le 100 (d.objects.flatMap shownPositions) ((d.objects.set i
      { o with positions := { a with data := .Vector3 (vs.set j x) } :: rest }).flatMap shownPositions)
    omega

/-- Objects with the same positions give the same positions of the mesh. -/
theorem shown_set {l : List MeshObjectData} {i : Nat} {o o' : MeshObjectData} (ho : l[i]? = some o) (h : shownPositions o = shownPositions o') :
    (l.set i o').flatMap shownPositions = l.flatMap shownPositions := by
  induction l generalizing i with
  | nil => rfl
  | cons y l ih =>
    cases i with
    | zero => cases ho; rw [List.set_cons_zero, List.flatMap_cons, List.flatMap_cons, h]
    | succ i => rw [List.set_cons_succ, List.flatMap_cons, List.flatMap_cons, ih ho]

/-- Changing one texture coordinate changes at most its 8 bytes. -/
theorem C93_uv (F : FloatConv) (bounds : List (Vector F32 3) → Mesh.BoundingInfo) (d : MeshData) (i m j : Nat) (o : MeshObjectData)
    (a : AttributeData) (vs : List (Vector F32 2)) (x : Vector F32 2)
    (ho : d.objects[i]? = some o) (hp : o.texture_coordinates[m]? = some a) (ha : a.data = .Vector2 vs) (b : Bytes)
    (hb : d.write F bounds = .ok b) :
    ∃ b', { d with
      objects := d.objects.set i { o with texture_coordinates := o.texture_coordinates.set m { a with data := .Vector2 (vs.set j x) } } }.write F
      bounds = .ok b' ∧ CloseBytes 8 b b' := by
  refine mesh_upto F bounds ((editMeshes_set d (k := 8) ho ?_).mono ?_) b hb
  · rw [editObject, if_pos ⟨rfl, rfl, rfl, rfl, rfl⟩]
    simp only [changed_self, editAll_refl editAttribute_refl, plus_zero', zero_plus, editAll_set editAttribute_refl hp]
    have : changed 100 (shownPositions o) (shownPositions
      { o with texture_coordinates := o.texture_coordinates.set m { a with data := .Vector2 (vs.set j x) } }) = 0 := if_pos rfl
    rw [this, zero_plus, editAttribute, if_pos rfl, ha]
    exact editVectors_set2 j x
  · rw [shown_set (o' := { o with texture_coordinates := o.texture_coordinates.set m { a with data := .Vector2 (vs.set j x) } }) ho rfl, changed_self,
      Nat.zero_add]

/-- Changing the sort bias of an object changes at most 4 bytes. -/
theorem C93_sort (F : FloatConv) (bounds : List (Vector F32 3) → Mesh.BoundingInfo) (d : MeshData) (i : Nat) (o : MeshObjectData) (x : Int32)
    (ho : d.objects[i]? = some o) (b : Bytes) (hb : d.write F bounds = .ok b) :
    ∃ b', { d with objects := d.objects.set i { o with sort_bias := x } }.write F bounds = .ok b' ∧ CloseBytes 4 b b' := by
  refine mesh_upto F bounds ((editMeshes_set d (k := 4) ho ?_).mono ?_) b hb
  · rw [editObject, if_pos ⟨rfl, rfl, rfl, rfl, rfl⟩]
    simp only [changed_self, editAll_refl editAttribute_refl, plus_zero']
    have : changed 100 (shownPositions o) (shownPositions { o with sort_bias := x }) = 0 := if_pos rfl
    rw [this]
    exact ⟨_, changed_le 4 o.sort_bias x, rfl⟩
  · rw [shown_set (o' := { o with sort_bias := x }) ho rfl, changed_self, Nat.zero_add]

example : ∃ o a rest vs b, (exampleMesh 10 "b" "a").objects[1]? = some o ∧ o.positions = a :: rest ∧ a.data = .Vector3 vs ∧ 1 < vs.length ∧
    (exampleMesh 10 "b" "a").write exampleConv exampleBounds = .ok b :=
  let ⟨b, h⟩ : ∃ b, (exampleMesh 10 "b" "a").write exampleConv exampleBounds = .ok b := isOk_iff.mp (by decide +kernel)
  ⟨_, _, _, _, b, rfl, rfl, rfl, by decide, h⟩
example : ∃ o a vs b, (exampleMesh 8 "b" "a").objects[1]? = some o ∧ o.texture_coordinates[1]? = some a ∧ a.data = .Vector2 vs ∧ 1 < vs.length ∧
    (exampleMesh 8 "b" "a").write exampleConv exampleBounds = .ok b :=
  let ⟨b, h⟩ : ∃ b, (exampleMesh 8 "b" "a").write exampleConv exampleBounds = .ok b := isOk_iff.mp (by decide +kernel)
  ⟨_, _, _, b, rfl, rfl, rfl, by decide, h⟩

end Verif.Props
