import Mathlib.Analysis.InnerProductSpace.PiL2
import Verif.Data.Spheres
import Verif.Props.Bounding
import Verif.Props.SavedFields
/-!
# Bounding spheres of saved meshes

C91: the spheres in saved meshes and MeshEx files contain the vertices of the objects they are for. That a sphere around points
contains the points, and one around spheres contains the spheres, is what the crate `geometry_tools` is for; which points, which
spheres, and where the results are found in the file is the library.
-/

namespace Verif
namespace Props
open MeshData MeshExData

/-! ## Description -/

/-- A point in space. -/
noncomputable def place (v : Vector F32 3) : EuclideanSpace ℝ (Fin 3) := !₂[(value v[0] : ℝ), (value v[1] : ℝ), (value v[2] : ℝ)]

/-- Center and radius are numbers. -/
def FiniteSphere (s : Mesh.BoundingSphere) : Prop := (∀ i : Fin 3, Finite s.center.toArray[i]) ∧ Finite s.radius

/-- The point is in the sphere or at most `e` outside. -/
def InSphere (e : ℝ) (p : Vector F32 3) (s : Mesh.BoundingSphere) : Prop :=
  dist (place p) (place s.center.toArray) ≤ (value s.radius : ℝ) + e

/-- The sphere is in the second sphere, or reaches at most `e` outside. -/
def SphereInSphere (e : ℝ) (s t : Mesh.BoundingSphere) : Prop :=
  dist (place s.center.toArray) (place t.center.toArray) + (value s.radius : ℝ) ≤ (value t.radius : ℝ) + e

/-- Center and radius in one vector. -/
def packed (s : Mesh.BoundingSphere) : Vector4 := ⟨s.center.x, s.center.y, s.center.z, s.radius⟩
def unpacked (v : Vector4) : Mesh.BoundingSphere := ⟨⟨v.x, v.y, v.z⟩, v.w⟩

/-- What `geometry_tools::bounding::calculate_bounding_sphere_from_points` is for; it may be off by `e`. -/
def FindsSphere (e : List (Vector F32 3) → ℝ) (G : Geometry) : Prop :=
  ∀ ps, (∀ p ∈ ps, ∀ i : Fin 3, Finite p[i]) → FiniteSphere (unpacked (G.sphere ps)) →
    ∀ p ∈ ps, InSphere (e ps) p (unpacked (G.sphere ps))

/-- What `geometry_tools::bounding::calculate_bounding_sphere_from_spheres` is for. -/
def FindsSphereOfSpheres (e : List Mesh.BoundingSphere → ℝ) (G : SphereGeometry) : Prop :=
  ∀ ss, (∀ s ∈ ss, FiniteSphere s) → FiniteSphere (unpacked (G.spheres (ss.map packed))) →
    ∀ s ∈ ss, SphereInSphere (e ss) s (unpacked (G.spheres (ss.map packed)))

/-! ## Meshes -/

/-- C91: in a saved mesh, the sphere of each object contains the vertices of the object which are read from the file, and the
sphere of the mesh contains the vertices of all objects. -/
theorem C91_mesh (F : FloatConv) (G : Geometry) (e : List (Vector F32 3) → ℝ) (hG : FindsSphere e G) (d : MeshData)
    (bytes : Bytes) (h : d.write F (calculateBoundingInfo G) = .ok bytes) (hl : bytes.length < 2 ^ 32)
    (hn : d.objects.Pairwise fun a b => ¬ (cutNul a.name = cutNul b.name ∧ a.subindex = b.subindex)) :
    ∃ m d', readAs Mesh bytes = .ok m ∧ MeshData.read F bytes = .ok d' ∧
      ((∀ o ∈ d'.objects, ∀ p ∈ firstPositions o, ∀ i : Fin 3, Finite p[i]) → FiniteSphere (meshBounds m).bounding_sphere →
        ∀ o ∈ d'.objects, ∀ p ∈ firstPositions o,
          InSphere (e (d'.objects.flatMap firstPositions)) p (meshBounds m).bounding_sphere) ∧
      (objectBounds m).length = d'.objects.length ∧
      ∀ (i : Nat) (o : MeshObjectData) (b : Mesh.BoundingInfo), d'.objects[i]? = some o → (objectBounds m)[i]? = some b →
        (∀ p ∈ firstPositions o, ∀ i : Fin 3, Finite p[i]) → FiniteSphere b.bounding_sphere →
        ∀ p ∈ firstPositions o, InSphere (e (firstPositions o)) p b.bounding_sphere := by
  obtain ⟨m, hm, hs⟩ := C61_file F _ d bytes h hl
  have hr := C45_mesh F _ d bytes h hl hn
  obtain ⟨h1, h2⟩ := saved_bounds hs
  have e' : ∀ os : List MeshObjectData, (os.map (storedObject F d.minor_version)).flatMap firstPositions = os.flatMap firstPositions := by
    intro os
    rw [List.flatMap_map]
    exact congrArg (os.flatMap ·) (funext fun o => firstPositions_stored F _ o)
  refine ⟨m, _, hm, hr, ?_, ?_, ?_⟩
  · simp only [e', h1]
    intro hf hfs o ho p hp
    refine hG _ (fun p hp i => ?_) hfs p ?_
    · rw [← e'] at hp
      obtain ⟨o, ho, hp⟩ := List.mem_flatMap.mp hp
      exact hf o ho p hp i
    · rw [← e']
      exact List.mem_flatMap.mpr ⟨o, ho, hp⟩
  · simp [h2]
  · intro i o b ho hb hf hfs p hp
    rw [h2, List.getElem?_map] at hb
    simp only [List.getElem?_map, Option.map_eq_some_iff] at ho hb
    obtain ⟨o', ho', rfl⟩ := ho
    obtain ⟨o'', ho'', rfl⟩ := hb
    obtain rfl := Option.some.inj (ho'.symm.trans ho'')
    rw [firstPositions_stored] at hf hp ⊢
    exact hG _ hf hfs p hp

/-! ## MeshEx -/

theorem groupPoints_eq (group : List MeshObjectData) : groupPoints group = group.flatMap firstPositions := by
  unfold groupPoints
  induction group with
  | nil => rfl
  | cons o os ih =>
    rw [List.flatMap_cons, ← ih]
    unfold firstPositions
    rcases h : o.positions with _ | ⟨a, l⟩
    · simp [h]
    · rcases a with ⟨n, v | v | v⟩ <;>
        simp only [List.filterMap_cons, h, List.head?_cons, Option.map_some, List.flatten_cons, List.map_append,
          VectorData.toVec4WithW, List.map_map, List.append_cancel_right_eq] <;>
        first | rfl | skip
      rw [List.map_congr_left (g := id) ?_, List.map_id]
      intro p _
      apply Vector.ext
      intro i hi
      rcases i with _ | _ | _ | i <;> first | rfl | omega

/-- The run of the `i`th element. -/
theorem runs_index (runs : List (String × List MeshObjectData)) : ∀ (n i : Nat) (o : MeshObjectData),
    (runs.flatMap (·.2))[i]? = some o →
    ∃ j r, runs[j]? = some r ∧ o ∈ r.2 ∧
      ((runs.zipIdx n).flatMap fun (r, j) => List.replicate r.2.length j)[i]? = some (n + j) := by
  induction runs with
  | nil => intro n i o h; simp at h
  | cons r rs ih =>
    intro n i o h
    rw [List.flatMap_cons] at h
    rw [List.zipIdx_cons, List.flatMap_cons]
    by_cases hi : i < r.2.length
    · rw [List.getElem?_append_left hi] at h
      refine ⟨0, r, rfl, List.mem_of_getElem? h, ?_⟩
      rw [List.getElem?_append_left (by simpa using hi)]
      simp [hi]
    · rw [List.getElem?_append_right (by omega)] at h
      obtain ⟨j, r', h1, h2, h3⟩ := ih (n + 1) _ o h
      refine ⟨j + 1, r', h1, h2, ?_⟩
      rw [List.getElem?_append_right (by simpa using hi)]
      simp only [List.length_replicate]
      rw [h3]
      congr 1
      omega

/-- What a MeshEx file says about the object with index `i`: it has an entry, which names a group with the name of the object, and
its vertices are in the sphere of the group and in the sphere of everything. The objects of the group follow each other. -/
def Located (e : List (Vector F32 3) → ℝ) (e' : List Mesh.BoundingSphere → ℝ) (m : MeshEx) (objects : List MeshObjectData)
    (i : Nat) (o : MeshObjectData) : Prop :=
  ∃ all groups entries entry group run, m.all_data = some all ∧ m.mesh_object_groups = some groups ∧ m.entries = some entries ∧
    entries[i]? = some entry ∧ groups[entry.mesh_object_group_index.toNat]? = some group ∧
    nameText group.mesh_object_full_name = cutNul o.name ∧
    run <:+: objects ∧ o ∈ run ∧ (∀ x ∈ run, x.name = o.name) ∧
    (FiniteSphere group.bounding_sphere →
      ∀ p ∈ firstPositions o, InSphere (e (run.flatMap firstPositions)) p group.bounding_sphere) ∧
    ((∀ g ∈ groups, FiniteSphere g.bounding_sphere) → FiniteSphere all.bounding_sphere →
      ∀ p ∈ firstPositions o,
        InSphere (e (run.flatMap firstPositions) + e' (groups.map (·.bounding_sphere))) p all.bounding_sphere)

theorem inSphere_trans {e e' : ℝ} {p : Vector F32 3} {s t : Mesh.BoundingSphere} (h1 : InSphere e p s)
    (h2 : SphereInSphere e' s t) : InSphere (e + e') p t := by
  unfold InSphere SphereInSphere at *
  have := dist_triangle (place p) (place s.center.toArray) (place t.center.toArray)
  linarith

/-- C91: in the MeshEx file made from the objects of a mesh, the entry with the index of an object leads to a group with its name,
and all its vertices are in the sphere of the group and in the sphere of everything. -/
theorem C91_meshex (G : SphereGeometry) (e : List (Vector F32 3) → ℝ) (e' : List Mesh.BoundingSphere → ℝ)
    (hG : FindsSphere e G.toGeometry) (hG' : FindsSphereOfSpheres e' G) (objects : List MeshObjectData) (bytes : Bytes)
    (h : (ofObjects G objects).write (allSphere G) = .ok bytes) (hn : objects.length < 2 ^ 32)
    (hf : ∀ o ∈ objects, ∀ p ∈ firstPositions o, ∀ i : Fin 3, Finite p[i]) :
    ∃ m, MeshEx.read bytes = .ok m ∧ ∀ i o, objects[i]? = some o → Located e e' m objects i o := by
  obtain ⟨runs, hr, hk, -, hg⟩ := C46_groups (·.name) (groupSphere G) objects
  have hg : (ofObjects G objects).mesh_object_groups = _ := hg
  have hsum : ((ofObjects G objects).mesh_object_groups.map (·.entry_flags.length)).sum = objects.length :=
    C46_entries (fun o : MeshObjectData => o.name) (groupSphere G) objects
  have hlen : (ofObjects G objects).mesh_object_groups.length < 2 ^ 32 := by
    refine lt_of_le_of_lt ?_ hn
    rw [← hsum, ← List.length_map (f := fun g : MeshObjectGroupData => g.entry_flags.length)]
    apply List.length_le_sum_of_one_le
    intro k hk'
    rw [hg] at hk'
    simp only [List.map_map, List.mem_map, Function.comp] at hk'
    obtain ⟨r, hr', rfl⟩ := hk'
    have := List.length_pos_iff.mpr (hk r hr').1
    simp only [List.length_replicate]
    omega
  unfold MeshExData.write at h
  split at h
  · cases h
  rename_i b hb
  cases h
  obtain ⟨groups, entries, flags, e1, e2, e3, l1, _, l2, l3⟩ := C33_entries (allSphere G) (ofObjects G objects) (Nat.le_of_lt hlen)
  refine ⟨_, (C15_meshex_file _ _ hb (by rw [e2]; simp only [countOf, Option.getD_some]; omega)
    (by rw [e3]; simp only [countOf, Option.getD_some]; omega)
    (by rw [e1]; simp only [countOf, Option.getD_some]; omega)).2.2, ?_⟩
  intro i o ho
  rw [← hr] at ho
  obtain ⟨j, r, hj, hor, hi⟩ := runs_index runs 0 i o ho
  have hrun := List.mem_of_getElem? hj
  have hj' : j < 2 ^ 32 := by
    have := (List.getElem?_eq_some_iff.mp hj).1
    rw [hg, List.length_map] at hlen
    omega
  have hju : (UInt32.ofNat j).toNat = j := by simp; omega
  have hname := (hk r hrun).2 o hor
  have hsub : r.2 <:+: objects := by
    obtain ⟨as, bs, rfl⟩ := List.append_of_mem hrun
    rw [← hr]
    exact ⟨as.flatMap (·.2), bs.flatMap (·.2), by simp⟩
  have hin : ∀ p ∈ firstPositions o, FiniteSphere (groupSphere G r.2) →
      InSphere (e (r.2.flatMap firstPositions)) p (groupSphere G r.2) := by
    intro p hp hfs
    have hfs' : FiniteSphere (unpacked (G.sphere (r.2.flatMap firstPositions))) := by
      rw [← groupPoints_eq]; exact hfs
    have := hG (r.2.flatMap firstPositions) (fun p hp i => by
      obtain ⟨x, hx, hp⟩ := List.mem_flatMap.mp hp
      exact hf x (hsub.subset hx) p hp i) hfs' p (List.mem_flatMap.mpr ⟨o, hor, hp⟩)
    rw [← groupPoints_eq] at this ⊢
    exact this
  have hentries : (toMeshEx (allSphere G) (ofObjects G objects)).entries =
      some ((runs.zipIdx.flatMap fun (r, j) => List.replicate r.2.length j).map fun j =>
        ⟨UInt32.ofNat j, ⟨0, 0x3f800000, 0⟩⟩) := by
    simp only [toMeshEx, hg, List.zipIdx_map, List.flatMap_map, List.map_flatMap, Option.some.injEq]
    apply List.flatMap_congr
    rintro ⟨r, j⟩ _
    simp
  refine ⟨⟨allSphere G ((ofObjects G objects).mesh_object_groups.map (·.bounding_sphere)), some allName⟩, _, _,
    ⟨UInt32.ofNat j, ⟨0, 0x3f800000, 0⟩⟩, ⟨groupSphere G r.2, some (.fromBytes (textBytes r.1)),
      some (.fromBytes (textBytes (stripMeshNameTags r.1)))⟩, r.2, rfl, rfl, hentries, ?_, ?_, ?_, hsub, hor, ?_, ?_, ?_⟩
  · rw [List.getElem?_map, hi, Nat.zero_add]
    rfl
  · show _[(UInt32.ofNat j).toNat]? = _
    rw [hju, List.getElem?_map, hg, List.getElem?_map, hj]
    rfl
  · rw [nameText_fromBytes, hname]
  · intro x hx
    rw [hname]
    exact (hk r hrun).2 x hx
  · exact fun hfs p hp => hin p hp hfs
  · intro hall hfa p hp
    have hmem : groupSphere G r.2 ∈ (ofObjects G objects).mesh_object_groups.map (·.bounding_sphere) := by
      rw [hg, List.map_map]
      exact List.mem_map.mpr ⟨r, hrun, rfl⟩
    have hfin : ∀ s ∈ (ofObjects G objects).mesh_object_groups.map (·.bounding_sphere), FiniteSphere s := by
      intro s hs
      obtain ⟨g, hg', rfl⟩ := List.mem_map.mp hs
      exact hall _ (List.mem_map.mpr ⟨g, hg', rfl⟩)
    have := hG' _ hfin hfa _ hmem
    rw [List.map_map]
    exact inSphere_trans (hin p hp (hfin _ hmem)) this

/-! ## Examples -/

/-- Coordinates which are not too large for a sphere around everything. -/
def Inner (m : ℚ) (p : Vector F32 3) : Prop := ∀ i : Fin 3, |value p[i]| ≤ m

instance (m : ℚ) (p : Vector F32 3) : Decidable (Inner m p) := inferInstanceAs (Decidable (∀ _ : Fin 3, _))

/-- A geometry library which takes a very large sphere around 0, or an infinite one if this is not enough. -/
def largeGeometry : SphereGeometry where
  sphere ps := if ∀ p ∈ ps, Inner (maxFinite / 16) p then ⟨0, 0, 0, 0x7dffffff⟩ else ⟨0, 0, 0, 0x7f800000⟩
  aabb := foldGeometry.aabb
  spheres ss := if ∀ s ∈ ss, Inner (maxFinite / 4) #v[s.x, s.y, s.z] ∧ value s.w ≤ maxFinite / 4 then ⟨0, 0, 0, 0x7f7fffff⟩
    else ⟨0, 0, 0, 0x7f800000⟩

theorem value_largest : value 0x7f7fffff = maxFinite := by decide +kernel
theorem value_large : value 0x7dffffff = maxFinite / 8 := by decide +kernel
theorem value_zero : value 0 = 0 := by decide +kernel
theorem infinite : ¬ Finite 0x7f800000 := by decide

theorem dist_origin {m : ℚ} {p : Vector F32 3} (h : Inner m p) : dist (place p) (place #v[0, 0, 0]) ≤ ((2 * m : ℚ) : ℝ) := by
  have hm : (0 : ℝ) ≤ ((2 * m : ℚ) : ℝ) := by
    have := (abs_nonneg _).trans (h 0)
    exact_mod_cast (by linarith : (0 : ℚ) ≤ 2 * m)
  rw [EuclideanSpace.dist_eq]
  apply Real.sqrt_le_iff.mpr
  refine ⟨hm, ?_⟩
  have h0 : ∀ i : Fin 3, (value p[i] : ℝ) ^ 2 ≤ (m : ℝ) ^ 2 := by
    intro i
    have := h i
    apply sq_le_sq'
    · exact_mod_cast (abs_le.mp this).1
    · exact_mod_cast (abs_le.mp this).2
  simp only [Fin.sum_univ_three, place, Real.dist_eq, sq_abs]
  have a0 : (value p[0] : ℝ) ^ 2 ≤ _ := h0 0
  have a1 : (value p[1] : ℝ) ^ 2 ≤ _ := h0 1
  have a2 : (value p[2] : ℝ) ^ 2 ≤ _ := h0 2
  have z : ((value (0 : F32) : ℚ) : ℝ) = 0 := by rw [value_zero]; norm_num
  simp only [Matrix.cons_val_zero, Matrix.cons_val_one, Matrix.cons_val]
  have e0 : (#v[(0 : F32), 0, 0])[0] = 0 := rfl
  have e1 : (#v[(0 : F32), 0, 0])[1] = 0 := rfl
  have e2 : (#v[(0 : F32), 0, 0])[2] = 0 := rfl
  rw [e0, e1, e2, z, sub_zero, sub_zero, sub_zero]
  push_cast
  nlinarith [sq_nonneg (m : ℝ)]

theorem largeGeometry_findsSphere : FindsSphere (fun _ => 0) largeGeometry.toGeometry := by
  intro ps _ hfs p hp
  unfold largeGeometry at hfs ⊢
  simp only at hfs ⊢
  split at hfs
  · rename_i h
    rw [if_pos h]
    have := dist_origin (h p hp)
    unfold InSphere
    refine le_trans this ?_
    show _ ≤ ((value 0x7dffffff : ℚ) : ℝ) + 0
    rw [value_large, add_zero]
    exact_mod_cast (by decide +kernel : 2 * (maxFinite / 16) ≤ maxFinite / 8)
  · exact absurd hfs.2 infinite

theorem largeGeometry_findsSpheres : FindsSphereOfSpheres (fun _ => 0) largeGeometry := by
  intro ss _ hfs s hs
  unfold largeGeometry at hfs ⊢
  simp only at hfs ⊢
  split at hfs
  · rename_i h
    rw [if_pos h]
    obtain ⟨h1, h2⟩ := h _ (List.mem_map_of_mem hs)
    have := dist_origin h1
    have h2' : ((value s.radius : ℚ) : ℝ) ≤ ((maxFinite / 4 : ℚ) : ℝ) := by exact_mod_cast h2
    unfold SphereInSphere
    show _ ≤ ((value 0x7f7fffff : ℚ) : ℝ) + 0
    rw [value_largest, add_zero]
    refine le_trans (add_le_add this h2') ?_
    exact_mod_cast (by decide +kernel : 2 * (maxFinite / 4) + maxFinite / 4 ≤ maxFinite)
  · exact absurd hfs.2 infinite

/-- The conditions of both theorems. -/
example : ∃ bytes, (triangle 10).write exampleConv (calculateBoundingInfo largeGeometry.toGeometry) = .ok bytes ∧
    bytes.length < 2 ^ 32 := exists_of_fileCheck (by decide +kernel)
example : ∃ bytes, (ofObjects largeGeometry ((triangle 10).objects ++ (triangle 10).objects)).write (allSphere largeGeometry) = .ok bytes :=
  isOk_iff.mp (by decide +kernel)
example (minor : UInt16) : ∀ o ∈ (triangle minor).objects, firstPositions o ≠ [] ∧ FiniteSphere (groupSphere largeGeometry [o]) ∧
    ∀ p ∈ firstPositions o, ∀ i : Fin 3, Finite p[i] := by
  intro o ho
  obtain rfl := List.mem_singleton.mp ho
  exact ⟨by decide +kernel, ⟨by decide +kernel, by decide +kernel⟩, by decide +kernel⟩
example : FiniteSphere (allSphere largeGeometry ((ofObjects largeGeometry ((triangle 10).objects ++ (triangle 10).objects)).mesh_object_groups.map
    (·.bounding_sphere))) := ⟨by decide +kernel, by decide +kernel⟩

end Props
end Verif
