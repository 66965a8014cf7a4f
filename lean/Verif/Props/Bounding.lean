import Verif.Data.Bounding
import Verif.Float.BoxLaws
import Verif.Props.Vectors
import Verif.Props.MeshFields
/-!
# Bounding boxes of saved meshes

C85: the boxes in a saved mesh are around the vertices. The crate `geometry_tools` finds the smallest and largest
coordinates (`FindsBox`), the library computes the rest.
-/

namespace Verif
namespace Props
open MeshData

/-! ## Description -/

/-- All coordinates are finite and at most half of the largest `f32`. -/
def Moderate (ps : List (Vector F32 3)) : Prop :=
  ∀ p ∈ ps, ∀ i : Fin 3, Finite p[i] ∧ |value p[i]| ≤ maxFinite / 2

/-- A box parallel to the axes contains all points and none of its sides can be moved inwards. -/
def SmallestBox (ps : List (Vector F32 3)) (low high : Vector3) : Prop :=
  ∀ i : Fin 3, (∀ p ∈ ps, value low.toArray[i] ≤ value p[i] ∧ value p[i] ≤ value high.toArray[i]) ∧
    (∃ p ∈ ps, p[i] = low.toArray[i]) ∧ ∃ p ∈ ps, p[i] = high.toArray[i]

/-- What `geometry_tools::bounding::calculate_aabb_from_points` is for. -/
def FindsBox (G : Geometry) : Prop :=
  ∀ ps, ps ≠ [] → (∀ p ∈ ps, ∀ i : Fin 3, Finite p[i]) → SmallestBox ps (G.aabb ps).1 (G.aabb ps).2

/-- How far the second box may be off in a direction where the coordinates are between `low` and `high`. -/
def slack (low high : ℚ) : ℚ := max |low| |high| / 2 ^ 24 + 1 / 2 ^ 149

/-- Both boxes are around the points. The second one is given by its center, its axes and half of its sizes. -/
structure Around (ps : List (Vector F32 3)) (b : Mesh.BoundingInfo) : Prop where
  volume : SmallestBox ps b.bounding_volume.min b.bounding_volume.max
  axes : ∀ v i, product b.oriented_bounding_box.transform.toColsArray v i = v i
  finite : ∀ i : Fin 3, Finite b.oriented_bounding_box.center.toArray[i] ∧ Finite b.oriented_bounding_box.size.toArray[i] ∧
    0 ≤ value b.oriented_bounding_box.size.toArray[i]
  inside : ∀ p ∈ ps, ∀ i : Fin 3, |value p[i] - value b.oriented_bounding_box.center.toArray[i]| ≤
    value b.oriented_bounding_box.size.toArray[i] +
      slack (value b.bounding_volume.min.toArray[i]) (value b.bounding_volume.max.toArray[i])
  small : ∀ i : Fin 3,
    value b.bounding_volume.min.toArray[i] -
        slack (value b.bounding_volume.min.toArray[i]) (value b.bounding_volume.max.toArray[i]) ≤
      value b.oriented_bounding_box.center.toArray[i] - value b.oriented_bounding_box.size.toArray[i] ∧
    value b.oriented_bounding_box.center.toArray[i] + value b.oriented_bounding_box.size.toArray[i] ≤
      value b.bounding_volume.max.toArray[i] +
        slack (value b.bounding_volume.min.toArray[i]) (value b.bounding_volume.max.toArray[i])

/-! ## One direction -/

theorem half_max (a b : ℚ) (h : a ≤ b) : |a + b| / 2 + (b - a) / 2 = max |a| |b| := by
  rcases abs_cases a with ⟨h1, h1'⟩ | ⟨h1, h1'⟩ <;> rcases abs_cases b with ⟨h2, h2'⟩ | ⟨h2, h2'⟩ <;>
    rcases abs_cases (a + b) with ⟨h3, h3'⟩ | ⟨h3, h3'⟩ <;> rw [h1, h2, h3] <;>
    first
    | (rw [max_eq_left (by linarith)]; linarith)
    | (rw [max_eq_right (by linarith)]; linarith)

open Ieee in
theorem one_axis {low high c s : F32} (hl : Finite low) (hh : Finite high) (h : value low ≤ value high)
    (bl : |value low| ≤ maxFinite / 2) (bh : |value high| ≤ maxFinite / 2) (hc : c = fdiv (fadd low high) 0x40000000)
    (hs : s = fdiv (fsub high low) 0x40000000) :
    Finite c ∧ Finite s ∧ 0 ≤ value s ∧
    (∀ v, value low ≤ v → v ≤ value high → |v - value c| ≤ value s + slack (value low) (value high)) ∧
    value low - slack (value low) (value high) ≤ value c - value s ∧
    value c + value s ≤ value high + slack (value low) (value high) := by
  have fl := (finite_iff low).mp hl
  have fh := (finite_iff high).mp hh
  have bl' := abs_le.mp bl
  have bh' := abs_le.mp bh
  have h1 := half_sum fl fh (by rw [← value_eq, ← value_eq, abs_le]; constructor <;> linarith)
  have h2 := half_sum fh fl.neg' (by rw [Fl.val_neg', ← value_eq, ← value_eq, abs_le]; constructor <;> linarith)
  rw [← value_eq, ← value_eq] at h1
  rw [Fl.val_neg', ← value_eq, ← value_eq] at h2
  have e1 : c = toBits ((ofBits (toBits ((ofBits low).add (ofBits high)))).div (ofBits 0x40000000)) := hc
  have e2 : s = toBits ((ofBits (toBits ((ofBits high).add (ofBits low).neg'))).div (ofBits 0x40000000)) := hs
  rw [← e1] at h1
  rw [← e2] at h2
  have hn : 0 ≤ value s := by
    apply value_nonneg_of
    have := (abs_le.mp h2.2).1
    rw [abs_of_nonneg (by linarith)] at this
    linarith
  have hm := half_max (value low) (value high) h
  have k1 := h1.2
  have k2 := h2.2
  rw [abs_of_nonneg (by linarith : (0 : ℚ) ≤ value high + -value low)] at k2
  unfold slack
  rw [← hm]
  refine ⟨h1.1, h2.1, hn, ?_, ?_, ?_⟩
  all_goals
    generalize value low = a at *
    generalize value high = b at *
    generalize value c = c' at *
    generalize value s = s' at *
    generalize |a + b| = t at *
    rw [abs_le] at k1 k2
  · intro v hv1 hv2
    rw [abs_le]
    constructor <;> linarith
  · linarith
  · linarith

/-! ## The boxes of points -/

/-- C85: the boxes around points. -/
theorem C85_boxes (G : Geometry) (hG : FindsBox G) (ps : List (Vector F32 3)) (hne : ps ≠ []) (hm : Moderate ps) :
    Around ps (calculateBoundingInfo G ps) := by
  have hb := hG ps hne fun p hp i => (hm p hp i).1
  have hx : ∀ i : Fin 3, _ := fun i => one_axis (low := (G.aabb ps).1.toArray[i]) (high := (G.aabb ps).2.toArray[i])
    (c := (calculateBoundingInfo G ps).oriented_bounding_box.center.toArray[i])
    (s := (calculateBoundingInfo G ps).oriented_bounding_box.size.toArray[i])
    (by obtain ⟨p, hp, e⟩ := (hb i).2.1; rw [← e]; exact (hm p hp i).1)
    (by obtain ⟨p, hp, e⟩ := (hb i).2.2; rw [← e]; exact (hm p hp i).1)
    (by obtain ⟨p, hp, e⟩ := (hb i).2.1; rw [← e]; exact ((hb i).1 p hp).2)
    (by obtain ⟨p, hp, e⟩ := (hb i).2.1; rw [← e]; exact (hm p hp i).2)
    (by obtain ⟨p, hp, e⟩ := (hb i).2.2; rw [← e]; exact (hm p hp i).2)
    (by rcases i with ⟨_ | _ | _ | i, hi⟩ <;> first | rfl | omega)
    (by rcases i with ⟨_ | _ | _ | i, hi⟩ <;> first | rfl | omega)
  exact {
    volume := hb
    axes := C83_identity.1
    finite := fun i => ⟨(hx i).1, (hx i).2.1, (hx i).2.2.1⟩
    inside := fun p hp i => (hx i).2.2.2.1 _ ((hb i).1 p hp).1 ((hb i).1 p hp).2
    small := fun i => (hx i).2.2.2.2 }

/-! ## Files -/

/-- The bounds of the mesh. -/
def meshBounds : Mesh → Mesh.BoundingInfo
  | .V8 m => m.bounding_info
  | .V9 m => m.bounding_info
  | .V10 m => m.bounding_info

/-- The bounds of its objects. -/
def objectBounds : Mesh → List Mesh.BoundingInfo
  | .V8 m => m.objects.map (·.bounding_info)
  | .V9 m => m.objects.map (·.bounding_info)
  | .V10 m => m.objects.map (·.bounding_info)

theorem firstPositions_stored (F : FloatConv) (minor : UInt16) (o : MeshObjectData) :
    firstPositions (storedObject F minor o) = firstPositions o := by
  unfold firstPositions storedObject stored
  rcases o.positions with _ | ⟨a, l⟩
  · simp
  · rcases a with ⟨n, _ | _ | _⟩ <;> simp [mapComponents, precision, Precision.round]

theorem saved_bounds {bounds : List (Vector F32 3) → Mesh.BoundingInfo} {d : MeshData} {m : Mesh} (h : Saved bounds d m) :
    meshBounds m = bounds (d.objects.flatMap firstPositions) ∧
    objectBounds m = d.objects.map fun o => bounds (firstPositions o) := by
  have key : ∀ {A : Type} {minor : UInt16} {view : A → AttributeView} {os : List MeshObjectData} {fs : List (Mesh.MeshObject A)},
      List.Forall₂ (SavedObject minor bounds view) os fs →
      fs.map (·.bounding_info) = os.map fun o => bounds (firstPositions o) := by
    intro A minor view os fs h
    induction h with
    | nil => rfl
    | cons h _ ih => simp only [List.map_cons, ih, h.bounding_info]
  cases m with
  | V8 m => exact ⟨SavedInner.bounding_info h, key (SavedInner.objects h)⟩
  | V9 m => exact ⟨SavedInner.bounding_info h, key (SavedInner.objects h)⟩
  | V10 m => exact ⟨SavedInner.bounding_info h, key (SavedInner.objects h)⟩

/-- C85: in a saved mesh, the boxes of each object are around the vertices of the object which are read from the file, and
the boxes of the mesh are around the vertices of all objects. -/
theorem C85_file (F : FloatConv) (G : Geometry) (hG : FindsBox G) (d : MeshData) (bytes : Bytes)
    (h : d.write F (calculateBoundingInfo G) = .ok bytes) (hl : bytes.length < 2 ^ 32)
    (hn : d.objects.Pairwise fun a b => ¬ (cutNul a.name = cutNul b.name ∧ a.subindex = b.subindex)) :
    ∃ m d', readAs Mesh bytes = .ok m ∧ MeshData.read F bytes = .ok d' ∧
      (d'.objects.flatMap firstPositions ≠ [] → Moderate (d'.objects.flatMap firstPositions) →
        Around (d'.objects.flatMap firstPositions) (meshBounds m)) ∧
      (objectBounds m).length = d'.objects.length ∧
      ∀ (i : Nat) (o : MeshObjectData) (b : Mesh.BoundingInfo), d'.objects[i]? = some o → (objectBounds m)[i]? = some b →
        firstPositions o ≠ [] → Moderate (firstPositions o) → Around (firstPositions o) b := by
  obtain ⟨m, hm, hs⟩ := C61_file F _ d bytes h hl
  have hr := C45_mesh F _ d bytes h hl hn
  obtain ⟨h1, h2⟩ := saved_bounds hs
  have e : ∀ os : List MeshObjectData, (os.map (storedObject F d.minor_version)).flatMap firstPositions = os.flatMap firstPositions := by
    intro os
    rw [List.flatMap_map]
    exact congrArg (os.flatMap ·) (funext fun o => firstPositions_stored F _ o)
  refine ⟨m, _, hm, hr, ?_, ?_, ?_⟩
  · simp only [e]
    intro hne hmo
    rw [h1]
    exact C85_boxes G hG _ hne hmo
  · simp [h2]
  · intro i o b ho hb hne hmo
    rw [h2, List.getElem?_map] at hb
    simp only [List.getElem?_map, Option.map_eq_some_iff] at ho hb
    obtain ⟨o', ho', rfl⟩ := ho
    obtain ⟨o'', ho'', rfl⟩ := hb
    obtain rfl := Option.some.inj (ho'.symm.trans ho'')
    rw [firstPositions_stored] at hne hmo ⊢
    exact C85_boxes G hG _ hne hmo

/-! ## Limits -/

/-- A point with the largest coordinate. -/
def farPoint : Vector F32 3 := #v[0x7f7fffff, 0, 0]

/-- C85: without the limit on the coordinates, the center of the second box is infinite, although the point is not. -/
theorem C85_overflow (G : Geometry) (hG : FindsBox G) : (∀ i : Fin 3, Finite farPoint[i]) ∧
    (calculateBoundingInfo G [farPoint]).oriented_bounding_box.center.x = 0x7f800000 := by
  have hf : ∀ i : Fin 3, Finite farPoint[i] := by decide
  refine ⟨hf, ?_⟩
  have hb := hG [farPoint] (by simp) (by simpa using hf) 0
  obtain ⟨-, ⟨p, hp, e1⟩, ⟨q, hq, e2⟩⟩ := hb
  obtain rfl := List.mem_singleton.mp hp
  obtain rfl := List.mem_singleton.mp hq
  have e1' : (G.aabb [farPoint]).1.x = 0x7f7fffff := e1.symm
  have e2' : (G.aabb [farPoint]).2.x = 0x7f7fffff := e2.symm
  show fdiv (fadd (G.aabb [farPoint]).1.x (G.aabb [farPoint]).2.x) 0x40000000 = _
  rw [e1', e2']
  decide +kernel

/-- Two points, one of them far away. -/
def farPair : List (Vector F32 3) := [#v[0x3f800000, 0, 0], #v[0x4b800001, 0, 0]]

/-- C85: the second box is not exactly around the points. The smallest coordinate is 1, and this box begins at 2. -/
theorem C85_rounding (G : Geometry) (hG : FindsBox G) :
    value (calculateBoundingInfo G farPair).oriented_bounding_box.center.x -
      value (calculateBoundingInfo G farPair).oriented_bounding_box.size.x = 2 ∧ ∃ p ∈ farPair, value p[0] = 1 := by
  refine ⟨?_, _, .head _, by decide +kernel⟩
  have hb := hG farPair (by simp [farPair]) (by decide) 0
  obtain ⟨hi, ⟨p, hp, e1⟩, ⟨q, hq, e2⟩⟩ := hb
  have e1' : (G.aabb farPair).1.x = p[0] := e1.symm
  have e2' : (G.aabb farPair).2.x = q[0] := e2.symm
  have h1 : p[0] = 0x3f800000 := by
    have h := (hi _ (.head _)).1
    have e1 : (G.aabb farPair).1.toArray[(0 : Fin 3)] = p[0] := e1'
    rw [e1] at h
    simp only [farPair, List.mem_cons, List.not_mem_nil, or_false] at hp
    rcases hp with rfl | rfl
    · rfl
    · revert h; decide +kernel
  have h2 : q[0] = 0x4b800001 := by
    have h := (hi _ (.tail _ (.head _))).2
    have e2 : (G.aabb farPair).2.toArray[(0 : Fin 3)] = q[0] := e2'
    rw [e2] at h
    simp only [farPair, List.mem_cons, List.not_mem_nil, or_false] at hq
    rcases hq with rfl | rfl
    · revert h; decide +kernel
    · rfl
  show value (fdiv (fadd (G.aabb farPair).1.x (G.aabb farPair).2.x) 0x40000000) -
    value (fdiv (fsub (G.aabb farPair).2.x (G.aabb farPair).1.x) 0x40000000) = _
  rw [e1', e2', h1, h2]
  decide +kernel

/-! ## Examples -/

/-- A geometry library which folds the points with `min` and `max`. -/
def foldGeometry : Geometry where
  sphere _ := ⟨0, 0, 0, 0⟩
  aabb
    | [] => (Vector3.ZERO, Vector3.ZERO)
    | p :: ps => (ps.foldl (fun a q => a.min (.ofArray q)) (.ofArray p), ps.foldl (fun a q => a.max (.ofArray q)) (.ofArray p))

theorem foldl_min_axis (i : Fin 3) : ∀ (ps : List (Vector F32 3)) (a : Vector3),
    (ps.foldl (fun a q => a.min (.ofArray q)) a).toArray[i] = (ps.map (·[i])).foldl Ieee.ops.min a.toArray[i]
  | [], _ => rfl
  | p :: ps, a => by
    rw [List.foldl_cons, foldl_min_axis i ps, List.map_cons, List.foldl_cons]
    congr 1
    rcases i with ⟨_ | _ | _ | i, hi⟩ <;> first | rfl | omega

theorem foldl_max_axis (i : Fin 3) : ∀ (ps : List (Vector F32 3)) (a : Vector3),
    (ps.foldl (fun a q => a.max (.ofArray q)) a).toArray[i] = (ps.map (·[i])).foldl Ieee.ops.max a.toArray[i]
  | [], _ => rfl
  | p :: ps, a => by
    rw [List.foldl_cons, foldl_max_axis i ps, List.map_cons, List.foldl_cons]
    congr 1
    rcases i with ⟨_ | _ | _ | i, hi⟩ <;> first | rfl | omega

open Ieee in
/-- There is such a library. -/
theorem foldGeometry_findsBox : FindsBox foldGeometry := by
  intro ps hne hf i
  obtain ⟨p, ps, rfl⟩ := List.exists_cons_of_ne_nil hne
  have hfin : ∀ v ∈ (p[i] : F32) :: ps.map (·[i]), (ofBits v).Fin := by
    intro v hv
    rw [← List.map_cons (f := fun q : Vector F32 3 => q[i])] at hv
    obtain ⟨q, hq, rfl⟩ := List.mem_map.mp hv
    exact (finite_iff _).mp (hf q hq i)
  have hp : (Vector3.ofArray p).toArray[i] = p[i] := by
    rcases i with ⟨_ | _ | _ | i, hi⟩ <;> first | rfl | omega
  have e1 : (foldGeometry.aabb (p :: ps)).1.toArray[i] = (ps.map (·[i])).foldl ops.min p[i] := by
    rw [← hp]; exact foldl_min_axis i ps _
  have e2 : (foldGeometry.aabb (p :: ps)).2.toArray[i] = (ps.map (·[i])).foldl ops.max p[i] := by
    rw [← hp]; exact foldl_max_axis i ps _
  obtain ⟨h1, h2⟩ := foldl_min_spec _ _ hfin
  obtain ⟨h3, h4⟩ := foldl_max_spec _ _ hfin
  rw [e1, e2]
  rw [← List.map_cons (f := fun q : Vector F32 3 => q[i])] at h1 h2 h3 h4
  refine ⟨fun q hq => ?_, ?_, ?_⟩
  · rw [value_eq, value_eq, value_eq]
    exact ⟨h2 _ (List.mem_map_of_mem hq), h4 _ (List.mem_map_of_mem hq)⟩
  · obtain ⟨q, hq, e⟩ := List.mem_map.mp h1
    exact ⟨q, hq, e⟩
  · obtain ⟨q, hq, e⟩ := List.mem_map.mp h3
    exact ⟨q, hq, e⟩

/-- Points with 1, -2 and 0.1 in some places. -/
example : Around [#v[0x3f800000, 0xc0000000, 0x3dcccccd], #v[0, 0x3f800000, 0x3f800000]]
    (calculateBoundingInfo foldGeometry [#v[0x3f800000, 0xc0000000, 0x3dcccccd], #v[0, 0x3f800000, 0x3f800000]]) :=
  C85_boxes _ foldGeometry_findsBox _ (by simp) (by unfold Moderate; decide +kernel)

def fileCheck {ε : Type} (r : Except ε Bytes) : Bool :=
  match r with
  | .ok b => decide (b.length < 2 ^ 32)
  | .error _ => false

theorem exists_of_fileCheck {ε : Type} {r : Except ε Bytes} (h : fileCheck r = true) :
    ∃ bytes, r = .ok bytes ∧ bytes.length < 2 ^ 32 := by
  cases r with
  | error e => cases h
  | ok b => exact ⟨b, rfl, of_decide_eq_true h⟩

/-- A mesh of one triangle. -/
def triangle (minor : UInt16) : MeshData :=
  ⟨1, minor, [{ exampleObject "a" 1 with
    normals := [], binormals := [], texture_coordinates := [], color_sets := [], bone_influences := [] }]⟩

/-- The conditions of C85_file. -/
example : ∃ bytes, (triangle 8).write exampleConv (calculateBoundingInfo foldGeometry) = .ok bytes ∧
    bytes.length < 2 ^ 32 := exists_of_fileCheck (by decide +kernel)
example : ∃ bytes, (triangle 9).write exampleConv (calculateBoundingInfo foldGeometry) = .ok bytes ∧
    bytes.length < 2 ^ 32 := exists_of_fileCheck (by decide +kernel)
example : ∃ bytes, (triangle 10).write exampleConv (calculateBoundingInfo foldGeometry) = .ok bytes ∧
    bytes.length < 2 ^ 32 := exists_of_fileCheck (by decide +kernel)
example (minor : UInt16) : ∀ o ∈ (triangle minor).objects, firstPositions o ≠ [] ∧ Moderate (firstPositions o) := by
  intro o ho
  obtain rfl := List.mem_singleton.mp ho
  exact ⟨by decide +kernel, by unfold Moderate; decide +kernel⟩
example (minor : UInt16) : (triangle minor).objects.Pairwise
    fun a b => ¬ (cutNul a.name = cutNul b.name ∧ a.subindex = b.subindex) := by
  simp [triangle]

end Props
end Verif
