import Verif.Data.AdjMesh
import Verif.Data.DataFiles
import Verif.Props.AdjData
import Verif.Props.FileLayout
import Mathlib.Data.List.Forall2
import Mathlib.Data.List.Basic
/-!
# C67: adjacency files and the adjacency of mesh objects

What the bytes of an Adj file mean, and the slots of the vertices of a mesh object with float positions.
-/

namespace Verif.Props
open Verif Layout

/-! ## Files -/

/-- The bytes hold this data: the number of entries, then for each entry the index of the object and an offset, then the
adjacent vertices of two bytes. `start` are the offsets. A range goes to the next one or to the end of the file. -/
def AdjShows (b : Bytes) (d : AdjData) : Prop :=
  NumAt 4 b 0 d.entries.length ∧ ∃ start : Nat → Nat,
    (∀ i (h : i < d.entries.length), NumAt 4 b (4 + i * 8) d.entries[i].mesh_object_index ∧ NumAt 4 b (8 + i * 8) (start i)) ∧
    ∀ i (h : i < d.entries.length),
      let count := (b.length - (4 + d.entries.length * 8)) / 2
      let stop := if i + 1 < d.entries.length then start (i + 1) / 2 else count
      start i / 2 ≤ stop ∧ stop ≤ count ∧ d.entries[i].vertex_adjacency.length = stop - start i / 2 ∧
      ∀ k (hk : k < d.entries[i].vertex_adjacency.length),
        Layout.i16.stored b (4 + d.entries.length * 8 + (start i / 2 + k) * 2) d.entries[i].vertex_adjacency[k]

theorem adj_read_iff (b : Bytes) (d : AdjData) :
    AdjData.read b = .ok d ↔ ∃ a, Adj.read b = .ok a ∧ AdjData.ofAdj a = .ok d := by
  unfold AdjData.read
  cases Adj.read b with
  | error e => simp [liftRead]
  | ok a => cases h : AdjData.ofAdj a <;> simp [liftRead, h]

/-- The ranges determine the data. -/
theorem ofAdj_iff_slices (a : Adj) (d : AdjData) : AdjData.ofAdj a = .ok d ↔ d.entries.length = a.entries.length ∧
    ∀ i (h : i < d.entries.length), adjRangeOk a i ∧ adjSlice a i d.entries[i] := by
  obtain ⟨h1, h2, _⟩ := C18_ranges a
  constructor
  · intro h
    obtain ⟨hl, hs⟩ := h2 d h
    refine ⟨hl, fun i hi => ⟨?_, hs i _ (List.getElem?_eq_getElem hi)⟩⟩
    apply Classical.byContradiction
    intro hc
    obtain ⟨err, he⟩ := h1.mpr ⟨i, by omega, hc⟩
    rw [h] at he; cases he
  · rintro ⟨hl, hs⟩
    cases ho : AdjData.ofAdj a with
    | error err =>
      obtain ⟨i, hi, hc⟩ := h1.mp ⟨err, ho⟩
      exact absurd (hs i (by omega)).1 hc
    | ok d' =>
      obtain ⟨hl', hs'⟩ := h2 d' ho
      congr 1
      obtain ⟨es⟩ := d
      obtain ⟨es'⟩ := d'
      congr 1
      apply List.ext_getElem (by simp only at *; omega)
      intro i h h'
      have e1 := (hs i h').2
      have e2 := hs' i es'[i] (List.getElem?_eq_getElem h)
      obtain ⟨a1, a2⟩ := e1
      obtain ⟨b1, b2⟩ := e2
      rw [a1] at b1
      simp only [Option.some.injEq] at b1
      simp only at a1 a2
      rcases hx : es[i] with ⟨m, v⟩
      rcases hy : es'[i] with ⟨m', v'⟩
      simp only [hx, hy] at *
      subst b1
      rw [a2, b2]

theorem i16_exists {b : Bytes} {p : Nat} (h : p + 2 ≤ b.length) : ∃ v, Layout.i16.stored b p v := by
  have hn : NumAt 2 b p (fromLe ((b.drop p).take 2)) := (numAt_iff (by decide)).mpr ⟨by omega, rfl⟩
  refine ⟨Int16.ofInt (fromLe ((b.drop p).take 2)), ?_⟩
  have hlt := hn.1
  generalize fromLe ((b.drop p).take 2) = x at *
  have : ((Int16.ofInt x).toInt % 65536).toNat = x := by
    rw [Int16.toInt_ofInt, show (65536 : Int) = (Int16.size : Int) from rfl, Int.bmod_emod,
      show (Int16.size : Int) = 65536 from rfl]
    omega
  show NumAt 2 b p ((Int16.ofInt x).toInt % 65536).toNat
  rwa [this]

theorem i16_unique {b : Bytes} {p : Nat} {v w : Int16} (h : Layout.i16.stored b p v) (h' : Layout.i16.stored b p w) :
    v = w := by
  have := NumAt.unique (by decide) h h'
  apply Int16.toInt_inj.mp
  have h1 := v.toInt_lt
  have h2 := v.le_toInt
  have h3 := w.toInt_lt
  have h4 := w.le_toInt
  omega

/-- C67: the data of a file is what its bytes hold. -/
theorem C67_read (b : Bytes) (d : AdjData) : AdjData.read b = .ok d ↔ AdjShows b d := by
  rw [adj_read_iff]
  constructor
  · rintro ⟨a, ha, ho⟩
    obtain ⟨f1, f2, f3, f4⟩ := (C65_adj b a).mp ha
    obtain ⟨hl, hs⟩ := (ofAdj_iff_slices a d).mp ho
    refine ⟨hl ▸ f1, fun i => (a.entries[i]?.map (·.index_buffer_offset.toNat)).getD 0, ?_, ?_⟩
    · intro i hi
      obtain ⟨g1, g2⟩ := f2 i (by omega)
      have := (hs i hi).2.1
      rw [List.getElem?_eq_getElem (by omega), Option.map_some, Option.some.injEq] at this
      simp only [List.getElem?_eq_getElem (show i < a.entries.length by omega), Option.map_some, Option.getD_some]
      rw [← this]
      refine ⟨g1, ?_⟩
      rw [show 8 + i * 8 = 4 + i * 8 + 4 by omega]
      exact g2
    · intro i hi
      obtain ⟨⟨r1, r2⟩, _, r3⟩ := hs i hi
      have hstop : adjStop a i = if i + 1 < d.entries.length then
          ((a.entries[i + 1]?.map (·.index_buffer_offset.toNat)).getD 0) / 2 else
          (b.length - (4 + d.entries.length * 8)) / 2 := by
        unfold adjStop
        by_cases h : i + 1 < d.entries.length
        · rw [if_pos h, List.getElem?_eq_getElem (by omega)]
          rfl
        · rw [if_neg h, List.getElem?_eq_none (by omega), hl, f3]
      simp only
      rw [← hstop, hl, f3]
      have hlen : d.entries[i].vertex_adjacency.length = adjStop a i - adjStart a i := by
        rw [r3, List.length_drop, List.length_take, Nat.min_eq_left r2]
      refine ⟨r1, r2, hlen, ?_⟩
      intro k hk
      have hk' : adjStart a i + k < a.index_buffer.length := by omega
      have : d.entries[i].vertex_adjacency[k] = a.index_buffer[adjStart a i + k] := by
        simp only [r3, List.getElem_drop, List.getElem_take]
      rw [this]
      exact f4 _ hk'
  · rintro ⟨g0, start, g1, g2⟩
    let count := (b.length - (4 + d.entries.length * 8)) / 2
    have hbuf : ∀ k, ∃ v, k < count → Layout.i16.stored b (4 + d.entries.length * 8 + k * 2) v := by
      intro k
      by_cases hk : k < count
      · obtain ⟨v, hv⟩ := i16_exists (b := b) (p := 4 + d.entries.length * 8 + k * 2) (by omega)
        exact ⟨v, fun _ => hv⟩
      · exact ⟨0, fun h => absurd h hk⟩
    obtain ⟨buf, hbuf⟩ := Classical.axiomOfChoice hbuf
    let a : Adj := ⟨d.entries.zipIdx.map fun (e, i) => ⟨UInt32.ofNat e.mesh_object_index, UInt32.ofNat (start i)⟩,
      (List.range count).map buf⟩
    have ha : ∀ i (h : i < d.entries.length), a.entries[i]? =
        some ⟨UInt32.ofNat d.entries[i].mesh_object_index, UInt32.ofNat (start i)⟩ := by
      intro i h
      simp [a, List.getElem?_zipIdx, List.getElem?_eq_getElem h]
    have hlen : a.entries.length = d.entries.length := by simp [a]
    have hcount : a.index_buffer.length = count := by simp [a]
    have hget : ∀ k (h : k < a.index_buffer.length), a.index_buffer[k] = buf k := by simp [a]
    have hnum : ∀ x, x < 256 ^ 4 → (UInt32.ofNat x).toNat = x := by
      intro x hx
      rw [UInt32.toNat_ofNat']
      omega
    have hstart : ∀ i, i < d.entries.length → adjStart a i = start i / 2 := by
      intro i hi
      simp only [adjStart, ha i hi, Option.map_some, Option.getD_some, hnum _ (g1 i hi).2.1]
    have hstop : ∀ i, i < d.entries.length → adjStop a i =
        if i + 1 < d.entries.length then start (i + 1) / 2 else count := by
      intro i hi
      unfold adjStop
      by_cases h : i + 1 < d.entries.length
      · rw [if_pos h, ha _ h]
        simp only [hnum _ (g1 _ h).2.1]
      · rw [if_neg h, List.getElem?_eq_none (by omega), hcount]
    refine ⟨a, (C65_adj b a).mpr ⟨hlen ▸ g0, ?_, ?_, ?_⟩, (ofAdj_iff_slices a d).mpr ⟨hlen.symm, ?_⟩⟩
    · intro i hi
      have hi' : i < d.entries.length := by omega
      have := ha i hi'
      rw [List.getElem?_eq_getElem hi, Option.some.injEq] at this
      rw [this]
      obtain ⟨m1, m2⟩ := g1 i hi'
      refine ⟨?_, ?_⟩
      · show NumAt 4 b _ (UInt32.ofNat _).toNat
        rwa [hnum _ m1.1]
      · show NumAt 4 b _ (UInt32.ofNat _).toNat
        rw [hnum _ m2.1, show 4 + i * 8 + 4 = 8 + i * 8 by omega]
        exact m2
    · rw [hlen, hcount]
    · intro k hk
      rw [hlen]
      simp only [a, List.getElem_map, List.getElem_range]
      exact hbuf k (by omega)
    · intro i hi
      obtain ⟨r1, r2, r3, r4⟩ := g2 i hi
      rw [← hstop i hi, ← hstart i hi] at r1
      rw [← hstop i hi] at r2
      rw [← hstop i hi, ← hstart i hi] at r3
      refine ⟨⟨r1, by rw [hcount]; exact r2⟩, ?_, ?_⟩
      · rw [ha i hi, Option.map_some, hnum _ (g1 i hi).1.1]
      · have r2' : adjStop a i ≤ a.index_buffer.length := by rw [hcount]; exact r2
        apply List.ext_getElem
        · rw [r3, List.length_drop, List.length_take, Nat.min_eq_left r2']
        · intro k h1 h2
          have := r4 k h1
          rw [← hstart i hi] at this
          refine i16_unique this ?_
          simp only [List.getElem_drop, List.getElem_take, hget]
          exact hbuf _ (by omega)

/-- What a file holds is determined; a file which holds no data is an error. -/
theorem C67_rejects (b : Bytes) (h : ¬∃ d, AdjShows b d) : ∃ e, AdjData.read b = .error e := by
  cases hr : AdjData.read b with
  | error e => exact ⟨e, rfl⟩
  | ok d => exact absurd ⟨d, (C67_read b d).mp hr⟩ h

/-- Two entries which share no vertex, and a byte at the end which does not count. -/
example : AdjShows [2, 0, 0, 0, 3, 0, 0, 0, 0, 0, 0, 0, 4, 0, 0, 0, 2, 0, 0, 0, 5, 0, 255, 255, 7, 0, 9]
    ⟨[⟨3, [5]⟩, ⟨4, [-1, 7]⟩]⟩ := (C67_read _ _).mp rfl

/-- The second range starts after the end of the file. -/
example : ¬∃ d, AdjShows [2, 0, 0, 0, 3, 0, 0, 0, 0, 0, 0, 0, 4, 0, 0, 0, 4, 0, 0, 0, 5, 0] d := by
  rintro ⟨d, h⟩
  have : AdjData.read [2, 0, 0, 0, 3, 0, 0, 0, 0, 0, 0, 0, 4, 0, 0, 0, 4, 0, 0, 0, 5, 0] = .error .convert := rfl
  rw [(C67_read _ _).mpr h] at this
  cases this

/-! ## Mesh objects -/

/-- Bit patterns of floats which are not numbers. -/
def NanBits (x : F32) : Prop := 0x7f800000 < x.toNat % 2 ^ 31

instance : DecidablePred NanBits := fun _ => inferInstanceAs (Decidable (_ < _))

/-- Equal floats: neither is a NaN, and they have the same bits or both are zeros. -/
def SameFloat (x y : F32) : Prop :=
  ¬NanBits x ∧ ¬NanBits y ∧ (x = y ∨ x.toNat % 2 ^ 31 = 0 ∧ y.toNat % 2 ^ 31 = 0)

/-- The coordinates of the vertices. -/
def coordinates : VectorData → List (List F32)
  | .Vector2 v => v.map (·.toList)
  | .Vector3 v => v.map (·.toList)
  | .Vector4 v => v.map (·.toList)

/-- Vertices `i` and `j` are at the same place. -/
def SamePlace (d : VectorData) (i j : Nat) : Prop :=
  ∃ p q, (coordinates d)[i]? = some p ∧ (coordinates d)[j]? = some q ∧ List.Forall₂ SameFloat p q

open Classical in
/-- The two other corners of every face corner at the place of vertex `i`. -/
noncomputable def neighbours (d : VectorData) (indices : List UInt32) (i : Nat) : List Int16 :=
  (List.range (coordinates d).length).flatMap fun j => if SamePlace d j i then adjacentTo indices j else []

/-- The slots of vertex `i`. -/
def slots (r : AdjEntryData) (i : Nat) : List Int16 := (r.vertex_adjacency.drop (18 * i)).take 18

theorem floatEq_iff (x y : F32) : AdjData.floatEq x y = true ↔ SameFloat x y := by
  have hx := x.toNat_lt
  have hy := y.toNat_lt
  have sx : x.toNat.testBit 31 = decide (2 ^ 31 ≤ x.toNat) := by
    rw [Nat.testBit_eq_decide_div_mod_eq]; simp only [decide_eq_decide]; omega
  have sy : y.toNat.testBit 31 = decide (2 ^ 31 ≤ y.toNat) := by
    rw [Nat.testBit_eq_decide_div_mod_eq]; simp only [decide_eq_decide]; omega
  have hinf : Ieee.single.inf = 0x7f800000 := by decide
  simp only [AdjData.floatEq, Ieee.Fl.eq, Ieee.Fl.isNan, Ieee.Fl.key, Ieee.ofBits, SameFloat, NanBits, sx, sy, hinf,
    ← UInt32.toNat_inj, Bool.and_eq_true, Bool.not_eq_true', decide_eq_false_iff_not, decide_eq_true_eq, and_assoc]
  refine and_congr_right fun _ => and_congr_right fun _ => ?_
  split <;> split <;> omega

theorem arrayEq_iff (p q : Vector F32 n) : AdjData.arrayEq p q = true ↔ List.Forall₂ SameFloat p.toList q.toList := by
  unfold AdjData.arrayEq
  have hl : p.toList.length = q.toList.length := by simp
  generalize p.toList = l at *
  generalize q.toList = m at *
  induction l generalizing m with
  | nil => cases m <;> simp_all
  | cons a l ih =>
    cases m with
    | nil => simp at hl
    | cons b m =>
      simp only [List.zip_cons_cons, List.all_cons, Bool.and_eq_true, floatEq_iff, List.forall₂_cons,
        ih m (by simpa using hl)]

theorem flatMap_eq_range {f : α → List β} {g : Nat → List β} {l : List α} (h : ∀ i (hi : i < l.length), f l[i] = g i) :
    l.flatMap f = (List.range l.length).flatMap g := by
  rw [List.flatMap_def, List.flatMap_def]
  congr 1
  apply List.ext_getElem (by simp)
  intro i h1 h2
  simp only [List.getElem_map, List.getElem_range]
  exact h i (by simpa using h1)

/-- What the theorems need about a list of vectors. -/
theorem faces_spec {v : List (Vector F32 n)} {d : VectorData} (hd : coordinates d = v.map (·.toList)) (k : Nat)
    (indices : List UInt32) (h : ∀ c ∈ corners indices, c.1.toNat < (coordinates d).length) :
    ∃ r, AdjData.fromTriangleFaces AdjData.arrayEq k v indices = .ok r ∧ r.mesh_object_index = k ∧
      r.vertex_adjacency = (List.range (coordinates d).length).flatMap fun i => cutOrFill 18 (neighbours d indices i) := by
  obtain ⟨r, h1, h2, h3, _⟩ := C19_adjacency AdjData.arrayEq k v indices (by simpa [hd] using h)
  refine ⟨r, h1, h2, ?_⟩
  rw [h3]
  have : ∀ i (hi : i < v.length), adjacentAll AdjData.arrayEq v indices v[i] = neighbours d indices i := by
    intro i hi
    unfold adjacentAll neighbours
    rw [hd, List.length_map]
    apply List.flatMap_congr
    intro j hj
    have hj : j < v.length := by simpa using hj
    have : (v[j]?.map (AdjData.arrayEq · v[i])) = some true ↔ SamePlace d j i := by
      rw [List.getElem?_eq_getElem hj, Option.map_some, Option.some.injEq, arrayEq_iff, SamePlace, hd]
      simp [List.getElem?_eq_getElem hj, List.getElem?_eq_getElem hi]
    by_cases h : SamePlace d j i
    · rw [if_pos (this.mpr h), if_pos h]
    · rw [if_neg fun c => h (this.mp c), if_neg h]
  rw [hd, List.length_map]
  exact flatMap_eq_range fun i hi => by rw [this i hi]

theorem flatMap_chunk {f : α → List β} {m : Nat} : ∀ {l : List α} (i : Nat), (∀ x ∈ l, (f x).length = m) →
    ((l.flatMap f).drop (m * i)).take m = ((l[i]?).map f).getD []
  | [], i, _ => by simp
  | a :: l, 0, h => by
    have := h a (by simp)
    simp [this]
  | a :: l, i + 1, h => by
    have h1 := h a (by simp)
    rw [List.flatMap_cons, Nat.mul_succ, Nat.add_comm, ← h1, ← List.drop_drop, List.drop_left, h1,
      flatMap_chunk i fun x hx => h x (by simp [hx])]
    rfl

/-- C67: the adjacency of a mesh object has 18 slots for each vertex of its first list of positions: the other corners of
the faces around the place of the vertex, cut to 18 or filled with -1. -/
theorem C67_mesh_object (k : Nat) (o : MeshData.MeshObjectData) (a : MeshData.AttributeData) (rest : List MeshData.AttributeData)
    (ho : o.positions = a :: rest) (h : ∀ c ∈ corners o.vertex_indices, c.1.toNat < (coordinates a.data).length) :
    ∃ r, AdjData.fromMeshObject k o = .ok r ∧ r.mesh_object_index = k ∧
      r.vertex_adjacency.length = 18 * (coordinates a.data).length ∧
      ∀ i < (coordinates a.data).length, slots r i = cutOrFill 18 (neighbours a.data o.vertex_indices i) := by
  obtain ⟨r, h1, h2, h3⟩ : ∃ r, AdjData.fromVectorData k a.data o.vertex_indices = .ok r ∧ r.mesh_object_index = k ∧
      r.vertex_adjacency = (List.range (coordinates a.data).length).flatMap fun i =>
        cutOrFill 18 (neighbours a.data o.vertex_indices i) := by
    unfold AdjData.fromVectorData
    cases hd : a.data <;> exact faces_spec (by rfl) k _ (hd ▸ h)
  refine ⟨r, by rw [AdjData.fromMeshObject, ho]; exact h1, h2, ?_, ?_⟩
  · rw [h3, List.length_flatMap]
    simp [cutOrFill_length, Nat.mul_comm]
  · intro i hi
    rw [slots, h3, flatMap_chunk i fun _ _ => cutOrFill_length ..]
    simp [hi]

/-- C67: without positions there are no slots. Faces do not matter then. -/
theorem C67_no_positions (k : Nat) (o : MeshData.MeshObjectData) (ho : o.positions = []) :
    AdjData.fromMeshObject k o = .ok ⟨k, []⟩ := by
  rw [AdjData.fromMeshObject, ho]

/-- C67: otherwise a face corner without position is a panic, also if there is no position at all. -/
theorem C67_panics (k : Nat) (o : MeshData.MeshObjectData) (a : MeshData.AttributeData) (rest : List MeshData.AttributeData)
    (ho : o.positions = a :: rest) : AdjData.fromMeshObject k o = .error .panic ↔
      ∃ c ∈ corners o.vertex_indices, ¬c.1.toNat < (coordinates a.data).length := by
  rw [AdjData.fromMeshObject, ho]
  simp only [AdjData.fromVectorData]
  cases a.data <;> simp only [C19_panics_iff, coordinates, List.length_map]

theorem SameFloat.symm {x y : F32} (h : SameFloat x y) : SameFloat y x :=
  ⟨h.2.1, h.1, h.2.2.elim (fun h => .inl h.symm) fun h => .inr ⟨h.2, h.1⟩⟩

theorem SameFloat.trans {x y z : F32} (h : SameFloat x y) (h' : SameFloat y z) : SameFloat x z := by
  obtain ⟨h1, h2, h3⟩ := h
  obtain ⟨h4, h5, h6⟩ := h'
  refine ⟨h1, h5, ?_⟩
  rcases h3 with rfl | ⟨a, b⟩
  · exact h6
  · rcases h6 with rfl | ⟨c, d⟩
    · exact .inr ⟨a, b⟩
    · exact .inr ⟨a, d⟩

theorem SamePlace.symm {d : VectorData} {i j : Nat} (h : SamePlace d i j) : SamePlace d j i := by
  obtain ⟨p, q, hp, hq, h⟩ := h
  exact ⟨q, p, hq, hp, h.flip.imp fun _ _ h => SameFloat.symm h⟩

theorem SamePlace.trans {d : VectorData} {i j k : Nat} (h : SamePlace d i j) (h' : SamePlace d j k) : SamePlace d i k := by
  obtain ⟨p, q, hp, hq, h⟩ := h
  obtain ⟨q', r, hq', hr, h'⟩ := h'
  rw [hq] at hq'
  cases hq'
  refine ⟨p, r, hp, hr, ?_⟩
  clear hp hq hr
  induction h generalizing r with
  | nil => cases h'; exact .nil
  | cons a _ ih => cases h' with | cons b t => exact .cons (a.trans b) (ih _ t)

/-- C67: vertices at the same place have the same slots, so that seams do not show. -/
theorem C67_seams (k : Nat) (o : MeshData.MeshObjectData) (a : MeshData.AttributeData) (rest : List MeshData.AttributeData)
    (ho : o.positions = a :: rest) (r : AdjEntryData) (h : AdjData.fromMeshObject k o = .ok r) (i j : Nat)
    (hij : SamePlace a.data i j) : slots r i = slots r j := by
  have hc : ∀ c ∈ corners o.vertex_indices, c.1.toNat < (coordinates a.data).length := by
    intro c hc
    apply Classical.byContradiction
    intro hn
    rw [(C67_panics k o a rest ho).mpr ⟨c, hc, hn⟩] at h
    cases h
  obtain ⟨r', h', _, _, hs⟩ := C67_mesh_object k o a rest ho hc
  rw [h] at h'
  cases h'
  have hi : i < (coordinates a.data).length := by
    obtain ⟨p, q, hp, _⟩ := hij
    exact (List.getElem?_eq_some_iff.mp hp).1
  have hj : j < (coordinates a.data).length := by
    obtain ⟨p, q, _, hq, _⟩ := hij
    exact (List.getElem?_eq_some_iff.mp hq).1
  rw [hs i hi, hs j hj]
  congr 1
  unfold neighbours
  congr 1
  funext l
  have : SamePlace a.data l i ↔ SamePlace a.data l j := ⟨fun h => h.trans hij, fun h => h.trans hij.symm⟩
  by_cases h : SamePlace a.data l j
  · rw [if_pos (this.mpr h), if_pos h]
  · rw [if_neg fun c => h (this.mp c), if_neg h]

/-- C67: a vertex with a coordinate that is not a number has no neighbours, even if it is the corner of faces. -/
theorem C67_nan (k : Nat) (o : MeshData.MeshObjectData) (a : MeshData.AttributeData) (rest : List MeshData.AttributeData)
    (ho : o.positions = a :: rest) (r : AdjEntryData) (h : AdjData.fromMeshObject k o = .ok r) (i : Nat) (p : List F32)
    (hp : (coordinates a.data)[i]? = some p) (hn : ∃ x ∈ p, NanBits x) : slots r i = List.replicate 18 (-1) := by
  have hc : ∀ c ∈ corners o.vertex_indices, c.1.toNat < (coordinates a.data).length := by
    intro c hc
    apply Classical.byContradiction
    intro hn
    rw [(C67_panics k o a rest ho).mpr ⟨c, hc, hn⟩] at h
    cases h
  obtain ⟨r', h', _, _, hs⟩ := C67_mesh_object k o a rest ho hc
  rw [h] at h'
  cases h'
  rw [hs i (List.getElem?_eq_some_iff.mp hp).1]
  have : neighbours a.data o.vertex_indices i = [] := by
    unfold neighbours
    rw [List.flatMap_eq_nil_iff]
    intro j _
    rw [if_neg]
    rintro ⟨q, p', _, hp', hf⟩
    rw [hp] at hp'
    cases hp'
    obtain ⟨x, hx, hn⟩ := hn
    clear hp hs
    rename_i hq
    clear hq
    induction hf with
    | nil => cases hx
    | cons hab _ ih =>
      rcases List.mem_cons.mp hx with rfl | hx
      · exact hab.2.1 hn
      · exact ih hx
  rw [this]
  rfl

/-- C67: the faces around a vertex whose coordinates are numbers are among its neighbours. -/
theorem C67_own (d : VectorData) (indices : List UInt32) (i : Nat) (p : List F32) (hp : (coordinates d)[i]? = some p)
    (hn : ∀ x ∈ p, ¬NanBits x) : ∀ v ∈ adjacentTo indices i, v ∈ neighbours d indices i := by
  intro v hv
  have : SamePlace d i i := ⟨p, p, hp, hp, List.forall₂_same.mpr fun x hx => ⟨hn x hx, hn x hx, .inl rfl⟩⟩
  unfold neighbours
  refine List.mem_flatMap.mpr ⟨i, List.mem_range.mpr (List.getElem?_eq_some_iff.mp hp).1, ?_⟩
  rwa [if_pos this]

/-- C67: a slot holds a vertex as a number of 16 bits with sign, which is the vertex exactly for vertices below 32768. -/
theorem C67_exact (v : UInt32) : v.toUInt16.toInt16.toInt = v.toNat ↔ v.toNat < 32768 := by
  have h : v.toUInt16.toInt16.toInt = Int.bmod v.toNat (2 ^ 16) := by
    rw [← Int16.toInt_toBitVec]
    show (v.toUInt16.toBitVec).toInt = _
    rw [BitVec.toInt_eq_toNat_bmod]
    show Int.bmod (v.toUInt16.toNat : Int) (2 ^ 16) = _
    rw [UInt32.toNat_toUInt16]
    rw [show ((v.toNat % 2 ^ 16 : Nat) : Int) = (v.toNat : Int) % ((2 ^ 16 : Nat) : Int) by omega, Int.emod_bmod]
  rw [h, Int.bmod_def]
  split <;> omega

/-- C67: the faces around a vertex may name vertex 65535, which then looks like an unused slot. -/
theorem C67_unused : ∃ indices : List UInt32, (∃ c ∈ corners indices, c.2.1 = 65535) ∧
    adjacentTo indices 0 = [-1, 1] :=
  ⟨[0, 65535, 1], ⟨(0, 65535, 1), by decide, rfl⟩, by decide⟩

/-- Two faces with a seam: vertices 1 and 3 are at the same place (0.0 and -0.0), vertex 4 has a NaN. -/
def seamObject : MeshData.MeshObjectData where
  name := "o"
  subindex := 0
  parent_bone_name := ""
  sort_bias := 0
  disable_depth_write := false
  disable_depth_test := false
  vertex_indices := [0, 1, 2, 3, 0, 4]
  positions := [⟨"", .Vector2 [#v[1, 1], #v[0, 2], #v[3, 3], #v[0x80000000, 2], #v[4, 0x7fc00000]]⟩]
  normals := []
  binormals := []
  tangents := []
  texture_coordinates := []
  color_sets := []
  bone_influences := []

/-- The conditions of the theorems. -/
example : ∃ a rest r, seamObject.positions = a :: rest ∧ AdjData.fromMeshObject 7 seamObject = .ok r ∧
    SamePlace a.data 1 3 ∧ slots r 1 = [2, 0, 0, 4] ++ List.replicate 14 (-1) ∧
    (∃ p, (coordinates a.data)[4]? = some p ∧ ∃ x ∈ p, NanBits x) ∧ adjacentTo seamObject.vertex_indices 4 = [3, 0] ∧
    ∀ c ∈ corners seamObject.vertex_indices, c.1.toNat < (coordinates a.data).length := by
  refine ⟨_, _, _, rfl, rfl, ⟨[0, 2], [0x80000000, 2], rfl, rfl, ?_⟩, by decide +kernel,
    ⟨[4, 0x7fc00000], rfl, 0x7fc00000, by simp, by decide⟩, by decide +kernel, by decide +kernel⟩
  exact .cons ⟨by decide, by decide, .inr ⟨by decide, by decide⟩⟩ (.cons ⟨by decide, by decide, .inl rfl⟩ .nil)

end Verif.Props
